import Mathlib.GroupTheory.Index
import Mathlib.GroupTheory.Perm.Cycle.Type
import Mathlib.Data.ZMod.Basic
import Mathlib.Tactic.Abel
import Mathlib.Tactic.Ring

/-!
The group theory of the CSIDH group action: the subgroups on which an endomorphism acts by a sign.
-/

namespace Verif.Colon

variable {Γ : Type*} [AddCommGroup Γ] {π : Γ →+ Γ} {N : AddSubgroup Γ} {q : ℕ}

/-- π - 1, and π + 1 -/
def eig (π : Γ →+ Γ) (s : Bool) : Γ →+ Γ := if s then π + AddMonoidHom.id Γ else π - AddMonoidHom.id Γ

theorem eig_true (P : Γ) : eig π true P = π P + P := rfl
theorem eig_false (P : Γ) : eig π false P = π P - P := rfl

/-- the elements on which π is the sign modulo N -/
def H (π : Γ →+ Γ) (s : Bool) (N : AddSubgroup Γ) : AddSubgroup Γ := N.comap (eig π s)

theorem le_H (hs : ∀ P, P ∈ N → π P ∈ N) (s : Bool) : N ≤ H π s N := by
  intro P hP
  cases s
  · exact N.sub_mem (hs P hP) hP
  · exact N.add_mem (hs P hP) hP

theorem card_comap (f : Γ →+ Γ) [Finite N] (h0 : Nat.card f.ker = q) :
    ∃ t, t ∣ Nat.card N ∧ Nat.card (N.comap f) = q * t := by
  obtain ⟨f', hf'⟩ : ∃ f' : N.comap f →+ N, f' = f.addSubgroupComap N := ⟨_, rfl⟩
  refine ⟨Nat.card f'.range, AddSubgroup.card_addSubgroup_dvd_card _, ?_⟩
  rw [← AddSubgroup.index_ker f', ← AddSubgroup.card_mul_index f'.ker]
  congr 1
  rw [← h0]
  refine Nat.card_congr ⟨fun x => ⟨x.1.1, ?_⟩, fun x => ⟨⟨x.1, ?_⟩, ?_⟩, fun x => rfl, fun x => rfl⟩
  · have := x.2
    rw [AddMonoidHom.mem_ker] at this
    have h2 := congrArg Subtype.val this
    subst hf'
    exact h2
  · have := x.2
    rw [AddMonoidHom.mem_ker] at this
    rw [AddSubgroup.mem_comap, this]
    exact N.zero_mem
  · rw [AddMonoidHom.mem_ker]
    subst hf'
    exact Subtype.ext x.2

theorem relIndex_dvd (f : Γ →+ Γ) [Finite N] (hq : q ≠ 0) (h0 : Nat.card f.ker = q) (hN : N ≤ N.comap f) : N.relIndex (N.comap f) ∣ q := by
  obtain ⟨t, ⟨t', ht⟩, hc⟩ := card_comap f h0 (N := N)
  have h1 : Nat.card N * N.relIndex (N.comap f) = Nat.card (N.comap f) := by
    rw [← AddSubgroup.relIndex_bot_left N, ← AddSubgroup.relIndex_bot_left (N.comap f)]
    exact AddSubgroup.relIndex_mul_relIndex _ _ _ bot_le hN
  rw [hc, ht] at h1
  have hN0 : Nat.card N ≠ 0 := Nat.card_pos.ne'
  have ht0 : t ≠ 0 := by rintro rfl; rw [zero_mul] at ht; exact hN0 ht
  refine ⟨t', ?_⟩
  apply Nat.eq_of_mul_eq_mul_left (Nat.pos_of_ne_zero ht0)
  rw [← mul_assoc, mul_right_comm, h1, mul_comm]

theorem smul_relIndex {C : AddSubgroup Γ} (hN : N ≤ C) {P : Γ} (hP : P ∈ C) : N.relIndex C • P ∈ N := by
  have := AddSubgroup.nsmul_index_mem (N.addSubgroupOf C) ⟨P, hP⟩
  exact this

/-- the elements on which π is the sign are killed by q, modulo N -/
theorem smul_mem [Finite N] (hq : q ≠ 0) {s : Bool} (h0 : Nat.card (eig π s).ker = q) (hs : ∀ P, P ∈ N → π P ∈ N) {P : Γ} (hP : eig π s P ∈ N) : q • P ∈ N := by
  have hle := le_H hs s
  obtain ⟨k, hk⟩ := relIndex_dvd (eig π s) hq h0 hle
  have := smul_relIndex hle (show P ∈ H π s N from hP)
  have h2 := N.nsmul_mem this k
  rw [← mul_smul, mul_comm] at h2
  rw [hk]
  exact h2

/-- the quotient by the part of order ℓ and sign s -/
def colon (π : Γ →+ Γ) (N : AddSubgroup Γ) (ℓ : ℕ) (s : Bool) : AddSubgroup Γ := H π s N ⊓ N.comap (nsmulAddMonoidHom ℓ)

theorem mem_colon {ℓ : ℕ} {s : Bool} {P : Γ} : P ∈ colon π N ℓ s ↔ eig π s P ∈ N ∧ ℓ • P ∈ N := Iff.rfl

theorem eig_comm (s t : Bool) (P : Γ) : eig π s (eig π t P) = eig π t (eig π s P) := by
  cases s <;> cases t <;> simp only [eig_true, eig_false, map_add, map_sub] <;> abel

theorem colon_comm (ℓ m : ℕ) (s t : Bool) : colon π (colon π N ℓ s) m t = colon π (colon π N m t) ℓ s := by
  ext P
  simp only [mem_colon, map_nsmul]
  rw [eig_comm, smul_comm ℓ m]
  tauto

theorem colon_le (hs : ∀ P, P ∈ N → π P ∈ N) (ℓ : ℕ) (s : Bool) : N ≤ colon π N ℓ s := le_inf (le_H hs s) fun _ hP => N.nsmul_mem hP ℓ

/-- an element of order ℓ and sign s generates the whole part -/
theorem sup_eq [Finite N] {s : Bool} {ℓ m : ℕ} (hl : ℓ.Prime) (hm : ¬ ℓ ∣ m) (hm0 : m ≠ 0) (h0 : Nat.card (eig π s).ker = ℓ * m) (hs : ∀ P, P ∈ N → π P ∈ N)
    {κ : Γ} (hκ : κ ∉ N) (h1 : ℓ • κ ∈ N) (h2 : eig π s κ ∈ N) : N ⊔ AddSubgroup.zmultiples κ = colon π N ℓ s := by
  set C := colon π N ℓ s with hC
  have hNC : N ≤ C := colon_le hs ℓ s
  have hκC : κ ∈ C := mem_colon.mpr ⟨h2, h1⟩
  have hle : N ⊔ AddSubgroup.zmultiples κ ≤ C := sup_le hNC (by rwa [AddSubgroup.zmultiples_le])
  have hq0 : ℓ * m ≠ 0 := mul_ne_zero hl.ne_zero hm0
  -- the order of C / N divides ℓ m
  have hd : N.relIndex C ∣ ℓ * m := by
    have hH := relIndex_dvd (eig π s) hq0 h0 (le_H hs s)
    have := AddSubgroup.relIndex_mul_relIndex N C (H π s N) hNC inf_le_left
    exact (Dvd.intro _ this).trans hH
  -- and it has no prime factor other than ℓ
  have hco : Nat.Coprime (N.relIndex C) m := by
    rw [Nat.coprime_iff_gcd_eq_one]
    by_contra hg
    obtain ⟨r, hr, hrg⟩ := Nat.exists_prime_and_dvd hg
    have hr1 := hrg.trans (Nat.gcd_dvd_left _ _)
    have hr2 := hrg.trans (Nat.gcd_dvd_right _ _)
    have : Finite (C ⧸ N.addSubgroupOf C) := by
      apply Nat.finite_of_card_ne_zero
      intro h
      have : N.relIndex C = 0 := h
      rw [this] at hd
      exact hq0 (zero_dvd_iff.mp hd)
    haveI := Fact.mk hr
    obtain ⟨x, hx⟩ := exists_prime_addOrderOf_dvd_card' (G := C ⧸ N.addSubgroupOf C) r hr1
    have hlx : ℓ • x = 0 := by
      induction x using QuotientAddGroup.induction_on with
      | H z =>
        rw [← QuotientAddGroup.mk_nsmul, QuotientAddGroup.eq_zero_iff]
        exact z.2.2
    have := addOrderOf_dvd_of_nsmul_eq_zero hlx
    rw [hx] at this
    have hrl := (Nat.prime_dvd_prime_iff_eq hr hl).mp this
    rw [hrl] at hr2
    exact hm hr2
  have hdl : N.relIndex C ∣ ℓ := hco.dvd_of_dvd_mul_right hd
  have hmul := AddSubgroup.relIndex_mul_relIndex N (N ⊔ AddSubgroup.zmultiples κ) C le_sup_left hle
  have hne : N.relIndex (N ⊔ AddSubgroup.zmultiples κ) ≠ 1 := by
    intro h
    rw [AddSubgroup.relIndex_eq_one] at h
    exact hκ (h (AddSubgroup.mem_sup_right (AddSubgroup.mem_zmultiples κ)))
  have h3 : N.relIndex (N ⊔ AddSubgroup.zmultiples κ) = ℓ := by
    have : N.relIndex (N ⊔ AddSubgroup.zmultiples κ) ∣ ℓ := (Dvd.intro _ hmul).trans hdl
    exact ((Nat.dvd_prime hl).mp this).resolve_left hne
  have h4 : (N ⊔ AddSubgroup.zmultiples κ).relIndex C = 1 := by
    have h5 : ℓ * (N ⊔ AddSubgroup.zmultiples κ).relIndex C ∣ ℓ * 1 := by rw [mul_one, ← h3, hmul, h3]; exact hdl
    exact Nat.dvd_one.mp (Nat.dvd_of_mul_dvd_mul_left hl.pos h5)
  exact le_antisymm hle (AddSubgroup.relIndex_eq_one.mp h4)

/-- all the quotients of a list -/
def colons (π : Γ →+ Γ) (N : AddSubgroup Γ) (l : List (ℕ × Bool)) : AddSubgroup Γ := l.foldl (fun N e => colon π N e.1 e.2) N

theorem colons_perm {l l' : List (ℕ × Bool)} (h : l.Perm l') : colons π N l = colons π N l' := by
  refine h.foldl_eq' ?_ N
  intro a _ b _ M
  exact colon_comm _ _ _ _

end Verif.Colon
