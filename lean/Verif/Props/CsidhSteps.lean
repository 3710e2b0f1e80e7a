import Verif.Props.CsidhLive
/-!
C119: the isogenies computed with a CSIDH private key.  An observer who can tell the isogenies apart by their degree (the time of one grows
with it) sees a list of degrees: `degrees` of the record that `groupActionLog` (`Verif/Model/Csidh.lean`) keeps.
-/
namespace Props.CsidhSteps
open Model Model.Limb Model.Csidh Spec.Csidh Props.CsidhLive Props.CsidhKeys

/-- The degrees of the isogenies computed, in order. -/
def degrees (s : RoundSt) : List Nat := s.log.map fun ev => ev.degree.toNat

/-- `t` may be seen when the public key of `sk` is generated. -/
def Seen (sk : PrivateKey) (t : List Nat) : Prop := ∃ rng s rest, groupActionLog fp0 sk rng = some (s, rest) ∧ t = degrees s

/-- The full statement: what may be seen is the same for all private keys. -/
def StepsHideKey : Prop := ∀ (sk sk' : PrivateKey) (t : List Nat), Seen sk t → Seen sk' t

theorem filter_split {α : Type} (l : List α) (p : α → Prop) [DecidablePred p] (s : α → Bool) :
    (l.filter fun x => decide (p x)).length = (l.filter fun x => decide (p x ∧ s x = false)).length + (l.filter fun x => decide (p x ∧ s x = true)).length := by
  induction l with
  | nil => rfl
  | cons a l ih =>
    by_cases hp : p a <;> cases hs : s a <;> simp [hp, hs, ih] <;> omega

theorem count_degrees (s : RoundSt) (l : Nat) : (degrees s).count l = (s.log.filter fun ev => decide (ev.degree.toNat = l)).length := by
  rw [degrees, List.count, List.countP_map, List.countP_eq_length_filter]
  congr 2

/-- Proved part, with nothing about the order: neither the random source nor the curve decides how often a degree is seen.  How often is the exponent of the private key for it, without sign: on every curve, with every random source. -/
theorem c119_counts_partial (a : Fp) (sk : PrivateKey) (rng rest : List Byte) (s : RoundSt) (h : groupActionLog a sk rng = some (s, rest)) (i l : Nat)
    (hl : ell[i]? = some l) : (degrees s).count l = (exponent sk.e i).natAbs := by
  obtain ⟨-, h2, -⟩ := c71_counts a sk rng s rest h
  obtain ⟨e1, e2⟩ := h2 i l hl
  rw [count_degrees, filter_split _ _ (fun ev => ev.sign), e1, e2]
  omega

/-- So two private keys with which the same degrees are seen, on whatever curves and with whatever random sources, have the same exponents
up to sign. -/
theorem c119_reveals (a a' : Fp) (sk sk' : PrivateKey) (rng rng' rest rest' : List Byte) (s s' : RoundSt)
    (h : groupActionLog a sk rng = some (s, rest)) (h' : groupActionLog a' sk' rng' = some (s', rest')) (he : degrees s = degrees s') :
    ∀ i < 74, (exponent sk.e i).natAbs = (exponent sk'.e i).natAbs := by
  intro i hi
  have hl : ell[i]? = some (ell[i]'(by rw [show ell.length = 74 by decide +kernel]; exact hi)) := List.getElem?_eq_getElem _
  rw [← c119_counts_partial a sk rng rest s h i _ hl, ← c119_counts_partial a' sk' rng' rest' s' h' i _ hl, he]

/-- Something is seen for every private key. -/
theorem c119_some (sk : PrivateKey) : ∃ t, Seen sk t := by
  obtain ⟨rng, pk, rest, h⟩ := (c102_public sk).2 []
  rw [generatePublicKey, groupAction, Option.map_map, Option.map_eq_some_iff] at h
  obtain ⟨⟨s, r⟩, h1, -⟩ := h
  exact ⟨_, _, s, r, h1, rfl⟩

/-- The zero key never shows an isogeny. -/
theorem c119_zero (t : List Nat) : Seen PrivateKey.zero t ↔ t = [] := by
  have key : ∀ t, Seen PrivateKey.zero t → t = [] := by
    rintro t ⟨rng, s, rest, h, rfl⟩
    obtain ⟨-, h2, h3⟩ := c71_counts _ _ _ _ _ h
    rw [degrees, List.map_eq_nil_iff, List.eq_nil_iff_forall_not_mem]
    intro ev hev
    obtain ⟨i, hi, hm⟩ := List.getElem_of_mem (h3 ev hev)
    have hc := c119_counts_partial _ _ _ _ _ h i _ (by rw [List.getElem?_eq_getElem hi, hm])
    have hp : 0 < (degrees s).count ev.degree.toNat := List.count_pos_iff.mpr (List.mem_map_of_mem (f := fun ev => ev.degree.toNat) hev)
    rw [hc] at hp
    have h0 : ∀ i < 74, exponent PrivateKey.zero.e i = 0 := by decide +kernel
    rw [h0 i (by rw [← show ell.length = 74 by decide +kernel]; exact hi)] at hp
    simp at hp
  refine ⟨key t, ?_⟩
  rintro rfl
  obtain ⟨t, ht⟩ := c119_some PrivateKey.zero
  rwa [key t ht] at ht

/-- The full statement is false. -/
theorem c119_full_false : ¬ StepsHideKey := by
  intro H
  obtain ⟨t, ht⟩ := c119_some ⟨0x10 :: List.replicate 36 0⟩
  have h1 := H ⟨0x10 :: List.replicate 36 0⟩ PrivateKey.zero t ht
  rw [c119_zero] at h1
  subst h1
  obtain ⟨rng, s, rest, h, he⟩ := ht
  have := c119_counts_partial _ _ _ _ _ h 0 3 (by decide)
  rw [← he] at this
  revert this
  decide +kernel

/-- Hypotheses met: there are runs of the private key with exponent 1 for the prime 3; each shows exactly one isogeny of degree 3. -/
example : ∃ rng s rest, groupActionLog fp0 ⟨0x10 :: List.replicate 36 0⟩ rng = some (s, rest) ∧ (degrees s).count 3 = 1 := by
  obtain ⟨t, rng, s, rest, h, -⟩ := c119_some ⟨0x10 :: List.replicate 36 0⟩
  refine ⟨rng, s, rest, h, ?_⟩
  rw [c119_counts_partial _ _ _ _ _ h 0 3 (by decide)]
  decide +kernel

end Props.CsidhSteps
