import Verif.Model.Steps
/-
Values and steps of sequences; two runs side by side.
-/
namespace Lemmas.Steps
open Model.Steps

variable {E α β γ δ : Type}

theorem val_bind (m : T E α) (f : α → T E β) : (m >>= f).val = m.val.bind (fun a => (f a).val) := by
  rcases m with ⟨_ | a, l⟩ <;> rfl
theorem val_pure (a : α) : (pure a : T E α).val = some a := rfl
theorem val_lift (v : Option α) (l : List E) : (lift v l).val = v := rfl
theorem val_tell (l : List E) : (tell l).val = some () := rfl
theorem val_tell_bind (l : List E) (f : Unit → T E β) : (tell l >>= f).val = (f ()).val := rfl
theorem val_lift_none (l : List E) (f : α → T E β) : (lift none l >>= f).val = none := rfl
theorem val_ite (c : Prop) [Decidable c] (m n : T E α) : (if c then m else n).val = if c then m.val else n.val := by split <;> rfl

theorem log_bind_ex (m : T E α) (f : α → T E β) : ∃ r, (m >>= f).log = m.log ++ r := by
  rcases m with ⟨_ | a, l⟩
  · exact ⟨[], (List.append_nil l).symm⟩
  · exact ⟨(f a).2, rfl⟩

/-- Two runs: the same steps, and both panic or both return, related values. -/
def Rel (R : α → β → Prop) (m : T E α) (n : T E β) : Prop := m.log = n.log ∧ Option.Rel R m.val n.val

theorem Rel.mono {R S : α → β → Prop} (h : ∀ a b, R a b → S a b) {m : T E α} {n : T E β} (hm : Rel R m n) : Rel S m n := by
  refine ⟨hm.1, ?_⟩
  have := hm.2
  cases hx : m.val <;> cases hy : n.val <;> rw [hx, hy] at this <;> cases this
  · exact .none
  · rename_i r; exact .some (h _ _ r)

theorem rel_pure {R : α → β → Prop} {a : α} {b : β} (h : R a b) : Rel R (pure a : T E α) (pure b) := ⟨rfl, .some h⟩

theorem rel_lift {R : α → β → Prop} {v : Option α} {w : Option β} {l l' : List E} (h : Option.Rel R v w) (hl : l = l') :
    Rel R (lift v l) (lift w l') := ⟨hl, h⟩

theorem rel_none {R : α → β → Prop} {l : List E} : Rel R (lift none l) (lift none l) := ⟨rfl, .none⟩

theorem rel_bind {R : α → β → Prop} {S : γ → δ → Prop} {m : T E α} {n : T E β} {f : α → T E γ} {g : β → T E δ} (h : Rel R m n)
    (hf : ∀ a b, R a b → Rel S (f a) (g b)) : Rel S (m >>= f) (n >>= g) := by
  obtain ⟨h1, h2⟩ := h
  rcases m with ⟨_ | a, l⟩ <;> rcases n with ⟨_ | b, l'⟩
  · exact ⟨h1, .none⟩
  · cases h2
  · cases h2
  · cases h2
    rename_i r
    obtain ⟨h3, h4⟩ := hf a b r
    refine ⟨?_, h4⟩
    change l ++ (f a).2 = l' ++ (g b).2
    change l = l' at h1
    change (f a).2 = (g b).2 at h3
    rw [h1, h3]

theorem rel_tell {S : γ → δ → Prop} {l l' : List E} {f : Unit → T E γ} {g : Unit → T E δ} (hl : l = l') (h : Rel S (f ()) (g ())) :
    Rel S (tell l >>= f) (tell l' >>= g) := by
  refine ⟨?_, h.2⟩
  change l ++ (f ()).2 = l' ++ (g ()).2
  rw [hl, show (f ()).2 = (g ()).2 from h.1]

theorem rel_ite {R : α → β → Prop} {c d : Prop} [Decidable c] [Decidable d] (hcd : c ↔ d) {m m' : T E α} {n n' : T E β}
    (h1 : c → Rel R m n) (h2 : ¬ c → Rel R m' n') : Rel R (if c then m else m') (if d then n else n') := by
  by_cases hc : c
  · rw [if_pos hc, if_pos (hcd.mp hc)]; exact h1 hc
  · rw [if_neg hc, if_neg (fun h => hc (hcd.mpr h))]; exact h2 hc

end Lemmas.Steps
