import Verif.Lemmas.XSquare
import Mathlib.Tactic.Module
/-
Chains of degree four and degree three quotients, and: the two orders of composing two chains end on the same curve.
-/
namespace Verif.XOnly

variable {K : Type*} [Field K] {Γ : Type*} [AddCommGroup Γ]

/-- a curve coefficient, the subgroup divided out so far, and the x-coordinate on the quotient -/
structure St (K Γ : Type*) [AddCommGroup Γ] where
  A : K
  N : AddSubgroup Γ
  g : Γ → K

/-- the state describes a Montgomery curve -/
def St.Ok (s : St K Γ) (T : Γ) : Prop := XRep s.A s.N T s.g

def St.step4 (s : St K Γ) (κ : Γ) : St K Γ :=
  ⟨coef4 (s.g κ), s.N ⊔ AddSubgroup.zmultiples κ, fun P => phi4 (s.g κ) (s.g P)⟩

def St.step3 (s : St K Γ) (κ : Γ) : St K Γ :=
  ⟨coef3 s.A (s.g κ), s.N ⊔ AddSubgroup.zmultiples κ, fun P => phi3 (s.g κ) (s.g P)⟩

/-- same curve and same x-coordinates -/
structure St.Eqv (s t : St K Γ) : Prop where
  A : s.A = t.A
  N : s.N = t.N
  g : ∀ P, P ∉ s.N → s.g P = t.g P

theorem St.Eqv.symm {s t : St K Γ} (h : s.Eqv t) : t.Eqv s :=
  ⟨h.A.symm, h.N.symm, fun P hP => (h.g P (h.N ▸ hP)).symm⟩

theorem St.Eqv.trans {s t u : St K Γ} (h : s.Eqv t) (h' : t.Eqv u) : s.Eqv u :=
  ⟨h.A.trans h'.A, h.N.trans h'.N, fun P hP => (h.g P hP).trans (h'.g P (h.N ▸ hP))⟩

theorem St.Eqv.refl (s : St K Γ) : s.Eqv s := ⟨rfl, rfl, fun _ _ => rfl⟩

variable {T κ μ : Γ}

theorem St.Eqv.step4 {s t : St K Γ} (h : s.Eqv t) (hκ : κ ∉ s.N) : (s.step4 κ).Eqv (t.step4 κ) := by
  refine ⟨?_, ?_, fun P hP => ?_⟩
  · simp only [St.step4]; rw [h.g κ hκ]
  · simp only [St.step4]; rw [h.N]
  · have : P ∉ s.N := fun h' => hP (AddSubgroup.mem_sup_left h')
    simp only [St.step4]; rw [h.g κ hκ, h.g P this]

theorem St.Eqv.step3 {s t : St K Γ} (h : s.Eqv t) (hκ : κ ∉ s.N) : (s.step3 κ).Eqv (t.step3 κ) := by
  refine ⟨?_, ?_, fun P hP => ?_⟩
  · simp only [St.step3]; rw [h.g κ hκ, h.A]
  · simp only [St.step3]; rw [h.N]
  · have : P ∉ s.N := fun h' => hP (AddSubgroup.mem_sup_left h')
    simp only [St.step3]; rw [h.g κ hκ, h.g P this]

theorem St.Ok.step4 {s : St K Γ} (h : s.Ok T) (hκ : Ker4 s.N T κ) : (s.step4 κ).Ok T := XRep.step4 h hκ

theorem St.Ok.step3 {s : St K Γ} (h : s.Ok T) (hκ : Ker3 s.N κ) : (s.step3 κ).Ok T := XRep.step3 h hκ

def St.run4 (s : St K Γ) (l : List Γ) : St K Γ := l.foldl St.step4 s
def St.run3 (s : St K Γ) (l : List Γ) : St K Γ := l.foldl St.step3 s

/-- the points of the list generate kernels of degree four, one after the other -/
def Good4 (T : Γ) : List Γ → AddSubgroup Γ → Prop
  | [], _ => True
  | κ :: l, N => Ker4 N T κ ∧ Good4 T l (N ⊔ AddSubgroup.zmultiples κ)

def Good3 : List Γ → AddSubgroup Γ → Prop
  | [], _ => True
  | κ :: l, N => Ker3 N κ ∧ Good3 l (N ⊔ AddSubgroup.zmultiples κ)

theorem St.Ok.run4 : ∀ {l : List Γ} {s : St K Γ}, s.Ok T → Good4 T l s.N → (s.run4 l).Ok T
  | [], _, h, _ => h
  | κ :: l, s, h, hg => St.Ok.run4 (l := l) (s := s.step4 κ) (h.step4 hg.1) hg.2

theorem St.Ok.run3 : ∀ {l : List Γ} {s : St K Γ}, s.Ok T → Good3 l s.N → (s.run3 l).Ok T
  | [], _, h, _ => h
  | κ :: l, s, h, hg => St.Ok.run3 (l := l) (s := s.step3 κ) (h.step3 hg.1) hg.2

theorem St.Eqv.run4 : ∀ {l : List Γ} {s t : St K Γ}, s.Eqv t → Good4 T l s.N → (s.run4 l).Eqv (t.run4 l)
  | [], _, _, h, _ => h
  | κ :: l, s, t, h, hg => St.Eqv.run4 (l := l) (s := s.step4 κ) (t := t.step4 κ) (h.step4 hg.1.ne1) hg.2

theorem St.Eqv.run3 : ∀ {l : List Γ} {s t : St K Γ}, s.Eqv t → Good3 l s.N → (s.run3 l).Eqv (t.run3 l)
  | [], _, _, h, _ => h
  | κ :: l, s, t, h, hg => St.Eqv.run3 (l := l) (s := s.step3 κ) (t := t.step3 κ) (h.step3 hg.1.ne) hg.2

theorem sup_right_comm' (N : AddSubgroup Γ) (κ μ : Γ) : N ⊔ AddSubgroup.zmultiples κ ⊔ AddSubgroup.zmultiples μ =
    N ⊔ AddSubgroup.zmultiples μ ⊔ AddSubgroup.zmultiples κ := sup_right_comm _ _ _

theorem Good4.stable : ∀ {l : List Γ} {N : AddSubgroup Γ}, Good4 T l N → Ker3 N μ → T + T ∈ N →
    Good4 T l (N ⊔ AddSubgroup.zmultiples μ)
  | [], _, _, _, _ => trivial
  | κ :: l, N, hg, hμ, hT => by
    refine ⟨hg.1.stable hμ hT, ?_⟩
    rw [sup_right_comm']
    exact Good4.stable hg.2 (hμ.stable4 hg.1.four) (AddSubgroup.mem_sup_left hT)

theorem Ker3.stableL : ∀ {l : List Γ} {s : St K Γ}, Ker3 s.N μ → Good4 T l s.N → Ker3 (s.run4 l).N μ
  | [], _, h, _ => h
  | κ :: l, s, h, hg => Ker3.stableL (l := l) (s := s.step4 κ) (h.stable4 hg.1.four) hg.2

/-- one square -/
theorem St.square {s : St K Γ} (X : s.Ok T) (h : Ker4 s.N T κ) (hμ : Ker3 s.N μ) :
    ((s.step3 μ).step4 κ).Eqv ((s.step4 κ).step3 μ) := by
  obtain ⟨h1, h2⟩ := square43 X h hμ
  exact ⟨h1.symm, sup_right_comm' _ _ _, fun P hP => (h2 P (by rw [sup_right_comm']; exact hP)).symm⟩

/-- a degree three step past a chain of degree four steps -/
theorem St.square_l : ∀ {l : List Γ} {s : St K Γ}, s.Ok T → Good4 T l s.N → Ker3 s.N μ →
    ((s.step3 μ).run4 l).Eqv ((s.run4 l).step3 μ)
  | [], s, _, _, _ => .refl _
  | κ :: l, s, X, hg, hμ => by
    have h1 := St.square X hg.1 hμ
    have hs : Good4 T (κ :: l) (s.step3 μ).N := Good4.stable hg hμ X.T2
    have h2 : (((s.step3 μ).step4 κ).run4 l).Eqv (((s.step4 κ).step3 μ).run4 l) := h1.run4 hs.2
    exact h2.trans (St.square_l (s := s.step4 κ) (X.step4 hg.1) hg.2 (hμ.stable4 hg.1.four))

/-- the two orders agree -/
theorem St.confluent : ∀ {m l : List Γ} {s : St K Γ}, s.Ok T → Good4 T l s.N → Good3 m s.N →
    ((s.run3 m).run4 l).Eqv ((s.run4 l).run3 m) ∧ Good4 T l (s.run3 m).N ∧ Good3 m (s.run4 l).N
  | [], l, s, _, hl, _ => ⟨.refl _, hl, trivial⟩
  | μ :: m, l, s, X, hl, hm => by
    have hl' : Good4 T l (s.step3 μ).N := hl.stable hm.1 X.T2
    obtain ⟨h1, h2, h3⟩ := St.confluent (m := m) (l := l) (s := s.step3 μ) (X.step3 hm.1) hl' hm.2
    have h4 := St.square_l X hl hm.1
    have h5 : Good3 m ((s.run4 l).step3 μ).N := h4.N ▸ h3
    exact ⟨h1.trans (h4.run3 h3), h2, Ker3.stableL hm.1 hl, h5⟩

/-! ### the chain of a point -/

/-- kernels of the chain dividing by ⟨R⟩, R of order q ^ n -/
def kers (q : Nat) (R : Γ) : Nat → List Γ
  | 0 => []
  | n + 1 => (q ^ n : Nat) • R :: kers q R n

theorem run4_N : ∀ (l : List Γ) (s : St K Γ), s.N ≤ (s.run4 l).N
  | [], _ => le_rfl
  | κ :: l, s => le_trans le_sup_left (run4_N l (s.step4 κ))

theorem run3_N : ∀ (l : List Γ) (s : St K Γ), s.N ≤ (s.run3 l).N
  | [], _ => le_rfl
  | κ :: l, s => le_trans le_sup_left (run3_N l (s.step3 κ))

theorem run4_le (q : Nat) (R : Γ) : ∀ (n : Nat) (s : St K Γ), (s.run4 (kers q R n)).N ≤ s.N ⊔ AddSubgroup.zmultiples R
  | 0, s => le_sup_left
  | n + 1, s => by
    refine le_trans (run4_le q R n (s.step4 ((q ^ n : Nat) • R))) ?_
    refine sup_le (sup_le le_sup_left (le_trans ?_ le_sup_right)) le_sup_right
    exact AddSubgroup.zmultiples_le_of_mem (AddSubgroup.nsmul_mem _ (AddSubgroup.mem_zmultiples R) _)

theorem run3_le (q : Nat) (R : Γ) : ∀ (n : Nat) (s : St K Γ), (s.run3 (kers q R n)).N ≤ s.N ⊔ AddSubgroup.zmultiples R
  | 0, s => le_sup_left
  | n + 1, s => by
    refine le_trans (run3_le q R n (s.step3 ((q ^ n : Nat) • R))) ?_
    refine sup_le (sup_le le_sup_left (le_trans ?_ le_sup_right)) le_sup_right
    exact AddSubgroup.zmultiples_le_of_mem (AddSubgroup.nsmul_mem _ (AddSubgroup.mem_zmultiples R) _)

theorem Ker4.next {N : AddSubgroup Γ} {u : Γ} (h : Ker4 N T ((4 : Nat) • u)) (hT : T + T ∈ N) :
    Ker4 (N ⊔ AddSubgroup.zmultiples ((4 : Nat) • u)) T u := by
  have h16 : (16 : ℤ) • u ∈ N := by
    have := h.four
    have e : (4 : Nat) • u + (4 : Nat) • u + ((4 : Nat) • u + (4 : Nat) • u) = (16 : ℤ) • u := by module
    rwa [e] at this
  have h8 : (8 : ℤ) • u ∉ N := by
    have := h.ne
    have e : (4 : Nat) • u + (4 : Nat) • u = (8 : ℤ) • u := by module
    rwa [e] at this
  refine ⟨AddSubgroup.mem_sup_right ?_, ?_, ?_⟩
  · have e : u + u + (u + u) = (4 : Nat) • u := by module
    rw [e]; exact AddSubgroup.mem_zmultiples _
  · intro hc
    obtain ⟨n, hn, y, hy, e⟩ := AddSubgroup.mem_sup.mp hc
    obtain ⟨z, rfl⟩ := AddSubgroup.mem_zmultiples_iff.mp hy
    -- 2u = n + 4z u, so 8u = 4n + 16 z u
    apply h8
    have e2 : (8 : ℤ) • u = (4 : ℤ) • n + z • ((16 : ℤ) • u) := by
      have : (8 : ℤ) • u = (4 : ℤ) • (u + u) := by module
      rw [this, ← e]; module
    rw [e2]
    exact N.add_mem (N.zsmul_mem hn _) (N.zsmul_mem h16 _)
  · intro hc
    obtain ⟨n, hn, y, hy, e⟩ := AddSubgroup.mem_sup.mp hc
    obtain ⟨z, rfl⟩ := AddSubgroup.mem_zmultiples_iff.mp hy
    apply h8
    have e2 : (8 : ℤ) • u = (4 : ℤ) • n + z • ((16 : ℤ) • u) + (2 : ℤ) • (T + T) := by
      have : (8 : ℤ) • u = (4 : ℤ) • (u + u - T) + (2 : ℤ) • (T + T) := by module
      rw [this, ← e]; module
    rw [e2]
    exact N.add_mem (N.add_mem (N.zsmul_mem hn _) (N.zsmul_mem h16 _)) (N.zsmul_mem hT _)

theorem Ker3.next {N : AddSubgroup Γ} {u : Γ} (h : Ker3 N ((3 : Nat) • u)) :
    Ker3 (N ⊔ AddSubgroup.zmultiples ((3 : Nat) • u)) u := by
  have h9 : (9 : ℤ) • u ∈ N := by
    have := h.three
    have e : (3 : Nat) • u + (3 : Nat) • u + (3 : Nat) • u = (9 : ℤ) • u := by module
    rwa [e] at this
  refine ⟨AddSubgroup.mem_sup_right ?_, ?_⟩
  · have e : u + u + u = (3 : Nat) • u := by module
    rw [e]; exact AddSubgroup.mem_zmultiples _
  · intro hc
    obtain ⟨n, hn, y, hy, e⟩ := AddSubgroup.mem_sup.mp hc
    obtain ⟨z, rfl⟩ := AddSubgroup.mem_zmultiples_iff.mp hy
    apply h.ne
    have e2 : (3 : Nat) • u = (3 : ℤ) • n + z • ((9 : ℤ) • u) := by
      have : (3 : Nat) • u = (3 : ℤ) • u := by module
      rw [this]
      nth_rw 1 [← e]; module
    rw [e2]
    exact N.add_mem (N.zsmul_mem hn _) (N.zsmul_mem h9 _)

theorem Good4.kers {R : Γ} : ∀ {n : Nat} {N : AddSubgroup Γ}, Ker4 N T ((4 ^ n : Nat) • R) → T + T ∈ N →
    Good4 T (kers 4 R (n + 1)) N
  | 0, _, h, _ => ⟨h, trivial⟩
  | n + 1, N, h, hT => by
    refine ⟨h, Good4.kers ?_ (AddSubgroup.mem_sup_left hT)⟩
    have e : (4 ^ (n + 1) : Nat) • R = (4 : Nat) • ((4 ^ n : Nat) • R) := by rw [pow_succ', mul_smul]
    rw [e] at h ⊢
    exact h.next hT

theorem Good3.kers {R : Γ} : ∀ {n : Nat} {N : AddSubgroup Γ}, Ker3 N ((3 ^ n : Nat) • R) → Good3 (kers 3 R (n + 1)) N
  | 0, _, h => ⟨h, trivial⟩
  | n + 1, N, h => by
    refine ⟨h, Good3.kers ?_⟩
    have e : (3 ^ (n + 1) : Nat) • R = (3 : Nat) • ((3 ^ n : Nat) • R) := by rw [pow_succ', mul_smul]
    rw [e] at h ⊢
    exact h.next

/-- tripling -/
theorem XRep.tpl {A : K} {N : AddSubgroup Γ} {g : Γ → K} (X : XRep A N T g) {P : Γ} (h1 : P ∉ N) (h2 : P + P ∉ N)
    (h3 : P + P + P ∉ N) : 3 * g P ^ 4 + 4 * A * g P ^ 3 + 6 * g P ^ 2 - 1 ≠ 0 ∧
      g (P + P + P) * (3 * g P ^ 4 + 4 * A * g P ^ 3 + 6 * g P ^ 2 - 1) ^ 2 =
        g P * (g P ^ 4 - 6 * g P ^ 2 - 4 * A * g P - 3) ^ 2 := by
  have hx : g P ≠ 0 := by
    apply X.ne_zero h1
    intro h
    apply h2
    have := N.add_mem (N.add_mem h h) X.T2
    have e : P - T + (P - T) + (T + T) = P + P := by abel
    rwa [e] at this
  have e : P + P - P = P := by abel
  have D := X.add (P + P) P h2 h1 h3 (by rw [e]; exact h1)
  rw [e] at D
  obtain ⟨hd, hdb⟩ := X.dbl P h1 h2
  have f1 : (g (P + P) - g P) * dblDen A (g P) = -(3 * g P ^ 4 + 4 * A * g P ^ 3 + 6 * g P ^ 2 - 1) := by
    have := hdb
    simp only [dblDen] at this ⊢
    linear_combination this
  have f2 : (g (P + P) * g P - 1) * dblDen A (g P) = g P * (g P ^ 4 - 6 * g P ^ 2 - 4 * A * g P - 3) := by
    have := hdb
    simp only [dblDen] at this ⊢
    linear_combination g P * this
  refine ⟨?_, ?_⟩
  · intro h0
    rw [h0, neg_zero] at f1
    rcases mul_eq_zero.mp f1 with h | h
    · exact D.ne (sub_eq_zero.mp h)
    · exact hd h
  · apply mul_left_cancel₀ hx
    have := D.prod
    generalize dblDen A (g P) = d at *
    generalize 3 * g P ^ 4 + 4 * A * g P ^ 3 + 6 * g P ^ 2 - 1 = v at *
    generalize g P ^ 4 - 6 * g P ^ 2 - 4 * A * g P - 3 = w at *
    have f1' : v = -((g (P + P) - g P) * d) := by rw [f1]; ring
    rw [f1']
    linear_combination d ^ 2 * this + ((g (P + P) * g P - 1) * d + g P * w) * f2

end Verif.XOnly
