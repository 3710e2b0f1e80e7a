import Verif.Lemmas.XIsog

/-!
Isogenies of degree four as two of degree two, and the fact that quotients by points of coprime
order commute: the two ways round a square give the same curve and the same points.
-/

namespace Verif.XOnly

variable {K : Type*} [Field K] {Γ : Type*} [AddCommGroup Γ]
variable {A : K} {N : AddSubgroup Γ} {T : Γ} {g : Γ → K} {κ μ : Γ}

theorem XRep.congr (X : XRep A N T g) {g' : Γ → K} (h : ∀ P, P ∉ N → g' P = g P) :
    XRep A N T g' := by
  have hn : ∀ P, P ∉ N → -P ∉ N := fun P hP h' => hP (by simpa using N.neg_mem h')
  have hsh : ∀ P n, P ∉ N → n ∈ N → P + n ∉ N := fun P n hP hn h' => hP (by
    have := N.sub_mem h' hn
    rwa [add_sub_cancel_right] at this)
  refine ⟨X.two, X.T2, X.TN, by rw [h T X.TN, X.zero], ?_, ?_, ?_, ?_, ?_⟩
  · intro P hP; rw [h _ (hn P hP), h _ hP, X.neg P hP]
  · intro P n hP hn; rw [h _ (hsh P n hP hn), h _ hP, X.shift P n hP hn]
  · intro P Q hP hQ hs hd
    rw [h _ hP, h _ hQ, h _ hs, h _ hd]; exact X.add P Q hP hQ hs hd
  · intro P hP hPP
    rw [h _ hP, h _ hPP]; exact X.dbl P hP hPP
  · intro P hP hPP
    rw [h _ hP]; exact X.dbl0 P hP hPP

/-! ### degree four -/

/-- the quotient by the cyclic subgroup of order four whose generators have x-coordinate `k` -/
def phi4 (k x : K) : K :=
  x * ((k ^ 2 + 1) * x - 2 * k) * (k * x - 1) ^ 2 / ((k ^ 2 + 1 - 2 * k * x) * (k - x) ^ 2)

/-- coefficient of the quotient curve -/
def coef4 (k : K) : K := 4 * k ^ 4 - 2

structure Ker4 (N : AddSubgroup Γ) (T κ : Γ) : Prop where
  four : κ + κ + (κ + κ) ∈ N
  ne : κ + κ ∉ N
  neT : κ + κ - T ∉ N

theorem Ker4.fst (h : Ker4 N T κ) : Ker2 N T (κ + κ) := ⟨h.four, h.ne, h.neT⟩

theorem Ker4.ne1 (h : Ker4 N T κ) : κ ∉ N := fun h' => h.ne (N.add_mem h' h')

theorem Ker4.k2 (h : Ker4 N T κ) (X : XRep A N T g) :
    g κ ^ 2 + 1 = 2 * g κ * g (κ + κ) := by
  obtain ⟨_, b⟩ := X.dbl κ h.ne1 h.ne
  have hc := h.fst.curve X
  have : (g κ ^ 2 + 1 - 2 * g κ * g (κ + κ)) ^ 2 = 0 := by
    rw [dblDen] at b
    linear_combination -b + 4 * g κ ^ 2 * hc
  have := pow_eq_zero_iff (two_ne_zero) |>.mp this
  linear_combination this

theorem Ker4.k_ne (h : Ker4 N T κ) (X : XRep A N T g) : g κ ≠ 0 := by
  intro h0
  have := h.k2 X
  rw [h0] at this
  apply one_ne_zero (α := K)
  linear_combination this

theorem Ker4.k_sq (h : Ker4 N T κ) (X : XRep A N T g) : g κ ^ 2 - 1 ≠ 0 := by
  intro h0
  have h2 := h.k2 X
  have h1 := h.fst.k_sq X
  apply h1
  have e : 2 * (g κ * g (κ + κ) - 1) = 0 := by linear_combination -h2 + h0
  have e := (mul_eq_zero.mp e).resolve_left X.two
  have : g κ ^ 2 * (g (κ + κ) ^ 2 - 1) = 0 := by
    linear_combination (g κ * g (κ + κ) + 1) * e - h0
  have := (mul_eq_zero.mp this).resolve_left (pow_ne_zero 2 (h.k_ne X))
  linear_combination this

theorem phi2_self {k : K} (h2 : (2 : K) ≠ 0) (hk : k ≠ 0) (h1 : k ^ 2 - 1 ≠ 0) :
    phi2 ((k ^ 2 + 1) / (2 * k)) k = k ^ 2 := by
  rw [phi2]
  have : k - (k ^ 2 + 1) / (2 * k) = (k ^ 2 - 1) / (2 * k) := by field_simp; ring
  rw [this]
  field_simp
  ring

theorem Ker4.k2' (h : Ker4 N T κ) (X : XRep A N T g) :
    g (κ + κ) = (g κ ^ 2 + 1) / (2 * g κ) := by
  have := h.k_ne X
  have := X.two
  have := h.k2 X
  field_simp
  linear_combination -this

theorem sup_double : N ⊔ AddSubgroup.zmultiples (κ + κ) ⊔ AddSubgroup.zmultiples κ =
    N ⊔ AddSubgroup.zmultiples κ := by
  rw [sup_assoc]
  congr 1
  apply sup_eq_right.mpr
  rw [AddSubgroup.zmultiples_le]
  exact AddSubgroup.add_mem _ (AddSubgroup.mem_zmultiples κ) (AddSubgroup.mem_zmultiples κ)

theorem Ker4.snd (h : Ker4 N T κ) (hT : T + T ∈ N) :
    Ker2 (N ⊔ AddSubgroup.zmultiples (κ + κ)) T κ := by
  have e4 := h.four
  refine ⟨AddSubgroup.mem_sup_right (AddSubgroup.mem_zmultiples _), ?_, ?_⟩
  · rw [mem_sup2 h.four]
    rintro (h' | h')
    · exact h.ne1 h'
    · apply h.ne1
      have e : κ = -(κ - (κ + κ)) := by abel
      rw [e]; exact N.neg_mem h'
  · rw [mem_sup2 h.four]
    rintro (h' | h')
    · apply h.ne
      have e : κ + κ = (κ - T) + (κ - T) + (T + T) := by abel
      rw [e]; exact N.add_mem (N.add_mem h' h') hT
    · apply h.ne
      have e : κ + κ = -((κ - T - (κ + κ)) + (κ - T - (κ + κ)) + (T + T)) := by abel
      rw [e]; exact N.neg_mem (N.add_mem (N.add_mem h' h') hT)

theorem Ker4.x_ne (h : Ker4 N T κ) (X : XRep A N T g) {P : Γ}
    (hP : P ∉ N ⊔ AddSubgroup.zmultiples κ) :
    g κ - g P ≠ 0 ∧ g κ ^ 2 + 1 - 2 * g κ * g P ≠ 0 := by
  have hm : κ ∈ N ⊔ AddSubgroup.zmultiples κ := AddSubgroup.mem_sup_right (AddSubgroup.mem_zmultiples κ)
  have hN : ∀ x ∈ N, x ∈ N ⊔ AddSubgroup.zmultiples κ := fun x hx => AddSubgroup.mem_sup_left hx
  have hm2 := AddSubgroup.add_mem _ hm hm
  have key : ∀ Q ∈ N ⊔ AddSubgroup.zmultiples κ, P + Q ∈ N ∨ P - Q ∈ N →
      P ∈ N ⊔ AddSubgroup.zmultiples κ := by
    rintro Q hQ (h' | h')
    · have e : P = P + Q - Q := by abel
      rw [e]; exact AddSubgroup.sub_mem _ (hN _ h') hQ
    · have e : P = P - Q + Q := by abel
      rw [e]; exact AddSubgroup.add_mem _ (hN _ h') hQ
  constructor
  · intro h0
    exact hP (key κ hm (X.inj (fun h' => hP (hN _ h')) h.ne1 (sub_eq_zero.mp h0).symm))
  · rw [h.k2 X]
    intro h0
    have h0 : 2 * g κ * (g (κ + κ) - g P) = 0 := by linear_combination h0
    have h0 := (mul_eq_zero.mp h0).resolve_left (mul_ne_zero X.two (h.k_ne X))
    exact hP (key _ hm2 (X.inj (fun h' => hP (hN _ h')) h.ne (sub_eq_zero.mp h0).symm))

theorem phi4_eq {k x : K} (h2 : (2 : K) ≠ 0) (hk : k ≠ 0) (hk2 : k ^ 2 + 1 ≠ 0)
    (h1 : k ^ 2 - 1 ≠ 0) (hx : k - x ≠ 0) (hx2 : k ^ 2 + 1 - 2 * k * x ≠ 0) :
    phi4 k x = -phi2 (phi2 ((k ^ 2 + 1) / (2 * k)) k) (phi2 ((k ^ 2 + 1) / (2 * k)) x) := by
  rw [phi2_self h2 hk h1]
  have e0 : phi2 ((k ^ 2 + 1) / (2 * k)) x = -(x * ((k ^ 2 + 1) * x - 2 * k)) / (k ^ 2 + 1 - 2 * k * x) := by
    rw [phi2]
    have : x - (k ^ 2 + 1) / (2 * k) = -(k ^ 2 + 1 - 2 * k * x) / (2 * k) := by
      field_simp; ring
    rw [this]; field_simp
  rw [e0]
  generalize hM : k ^ 2 + 1 - 2 * k * x = M at *
  have e1 : -(x * ((k ^ 2 + 1) * x - 2 * k)) / M - k ^ 2 = -((k ^ 2 + 1) * (k - x) ^ 2) / M := by
    field_simp; rw [← hM]; ring
  have e2 : k ^ 2 * (-(x * ((k ^ 2 + 1) * x - 2 * k)) / M) - 1 = -((k ^ 2 + 1) * (k * x - 1) ^ 2) / M := by
    field_simp; rw [← hM]; ring
  rw [phi2, e1, e2, phi4, hM]
  field_simp

theorem Ker4.kk_ne (h : Ker4 N T κ) (X : XRep A N T g) : g κ ^ 2 + 1 ≠ 0 := by
  rw [h.k2 X]
  exact mul_ne_zero (mul_ne_zero X.two (h.k_ne X)) (h.fst.k_ne X)

theorem Ker4.phi4_eq (h : Ker4 N T κ) (X : XRep A N T g) {P : Γ}
    (hP : P ∉ N ⊔ AddSubgroup.zmultiples κ) :
    phi4 (g κ) (g P) = -phi2 (phi2 (g (κ + κ)) (g κ)) (phi2 (g (κ + κ)) (g P)) := by
  rw [h.k2' X]
  obtain ⟨h1, h2⟩ := h.x_ne X hP
  exact XOnly.phi4_eq X.two (h.k_ne X) (h.kk_ne X) (h.k_sq X) h1 h2

theorem Ker4.coef4_eq (h : Ker4 N T κ) (X : XRep A N T g) :
    coef4 (g κ) = -(2 - 4 * phi2 (g (κ + κ)) (g κ) ^ 2) := by
  rw [h.k2' X, phi2_self X.two (h.k_ne X) (h.k_sq X), coef4]
  ring

theorem XRep.step4 (X : XRep A N T g) (h : Ker4 N T κ) :
    XRep (coef4 (g κ)) (N ⊔ AddSubgroup.zmultiples κ) T (fun P => phi4 (g κ) (g P)) := by
  have Y := ((X.step2 h.fst).step2 (h.snd X.T2)).flip
  rw [sup_double] at Y
  rw [h.coef4_eq X]
  exact Y.congr fun P hP => h.phi4_eq X hP

/-! ### commuting squares -/

theorem square_pt {a b p : K} (hA : a ^ 2 + A * a + 1 = 0)
    (hb : 3 * b ^ 4 + 4 * A * b ^ 3 + 6 * b ^ 2 - 1 = 0) (ha : a ≠ 0)
    (hb0 : b ≠ 0) (hpa : p - a ≠ 0) (hpb : p - b ≠ 0) (hab : a - b ≠ 0)
    (hf : p * b - a * (p + b) + 1 ≠ 0) :
    phi3 (phi2 a b) (phi2 a p) = phi2 (phi3 b a) (phi3 b p) := by
  have hba : b - a ≠ 0 := by rw [← neg_ne_zero, neg_sub]; exact hab
  have s1 : summ A p a b = (p * b - a * (p + b) + 1) ^ 2 := by
    rw [summ]; linear_combination (-4 * p * b) * hA
  have s2 : summ' A p a b = (a * p * b - (p + b) + a) ^ 2 := by
    rw [summ']; linear_combination (-4 * p * b) * hA
  have f1 := phi3_sub hb hpb hab
  have f2 := phi3_mul hb hpb hab
  rw [s1] at f1
  rw [s2] at f2
  have f3 : phi2 a p - phi2 a b = a * (p - b) * (p * b - a * (p + b) + 1) / ((p - a) * (b - a)) := by
    simp only [phi2]; field_simp; ring
  have f4 : phi2 a b * phi2 a p - 1 =
      a * (p * b - 1) * (a * p * b - (p + b) + a) / ((p - a) * (b - a)) := by
    simp only [phi2]; field_simp; ring
  generalize hF : p * b - a * (p + b) + 1 = F at *
  generalize hG : a * p * b - (p + b) + a = G at *
  have l : phi3 (phi2 a b) (phi2 a p) = phi2 a p * ((p * b - 1) * G / ((p - b) * F)) ^ 2 := by
    rw [phi3, f3, f4]; congr 2; field_simp
  have r : phi2 (phi3 b a) (phi3 b p) = phi3 b p * ((p * a - 1) * G ^ 2 / ((p - a) * F ^ 2)) := by
    rw [phi2, mul_comm (phi3 b a), f1, f2, mul_div_assoc]; congr 1; field_simp
  rw [l, r, phi2, phi3]
  field_simp

theorem square_coef {a b : K} (hA : a ^ 2 + A * a + 1 = 0)
    (hb : 3 * b ^ 4 + 4 * A * b ^ 3 + 6 * b ^ 2 - 1 = 0) (hab : a - b ≠ 0) :
    coef3 (2 - 4 * a ^ 2) (phi2 a b) = 2 - 4 * phi3 b a ^ 2 := by
  have hba : b - a ≠ 0 := by rw [← neg_ne_zero, neg_sub]; exact hab
  have R : a * (3 * b ^ 4 + 6 * b ^ 2 - 1) - 4 * (a ^ 2 + 1) * b ^ 3 = 0 := by
    linear_combination a * hb - 4 * b ^ 3 * hA
  have e : (coef3 (2 - 4 * a ^ 2) (phi2 a b) - (2 - 4 * phi3 b a ^ 2)) * (b - a) ^ 4 = 0 := by
    have e1 : coef3 (2 - 4 * a ^ 2) (phi2 a b) * (b - a) ^ 4 =
        (b - a) * (b ^ 2 * (a * b - 1) ^ 2 * (2 - 4 * a ^ 2) * (b - a) - 6 * b ^ 3 * (a * b - 1) ^ 3 +
          6 * b * (a * b - 1) * (b - a) ^ 2) := by
      simp only [coef3, phi2]; field_simp
    have e2 : (2 - 4 * phi3 b a ^ 2) * (b - a) ^ 4 = 2 * (b - a) ^ 4 - 4 * a ^ 2 * (a * b - 1) ^ 4 := by
      have : (a - b) ^ 4 = (b - a) ^ 4 := by ring
      rw [← this]
      simp only [phi3]; field_simp
    rw [sub_mul, e1, e2]
    linear_combination (-4 * a + 4 * a * b ^ 2 + 2 * a ^ 2 * b - 2 * a ^ 2 * b ^ 3 + 2 * a ^ 3 -
      2 * a ^ 3 * b ^ 2) * R
  have := (mul_eq_zero.mp e).resolve_right (pow_ne_zero 4 hba)
  exact sub_eq_zero.mp this

theorem Ker2.stable (h : Ker2 N T κ) (hμ : Ker3 N μ) (hT : T + T ∈ N) :
    Ker2 (N ⊔ AddSubgroup.zmultiples μ) T κ := by
  have h3 := hμ.three
  have h2 := h.two
  refine ⟨AddSubgroup.mem_sup_left h.two, ?_, ?_⟩
  · rw [mem_sup3 h3]
    rintro (h' | h' | h')
    · exact h.ne h'
    · apply h.ne
      have e : κ = (κ - μ) + (κ - μ) + (κ - μ) + (μ + μ + μ) - (κ + κ) := by abel
      rw [e]; exact N.sub_mem (N.add_mem (N.add_mem (N.add_mem h' h') h') h3) h2
    · apply h.ne
      have e : κ = (κ + μ) + (κ + μ) + (κ + μ) - (μ + μ + μ) - (κ + κ) := by abel
      rw [e]; exact N.sub_mem (N.sub_mem (N.add_mem (N.add_mem h' h') h') h3) h2
  · rw [mem_sup3 h3]
    rintro (h' | h' | h')
    · exact h.neT h'
    · apply h.neT
      have e : κ - T = (κ - T - μ) + (κ - T - μ) + (κ - T - μ) + (μ + μ + μ) - (κ + κ) + (T + T) := by
        abel
      rw [e]
      exact N.add_mem (N.sub_mem (N.add_mem (N.add_mem (N.add_mem h' h') h') h3) h2) hT
    · apply h.neT
      have e : κ - T = (κ - T + μ) + (κ - T + μ) + (κ - T + μ) - (μ + μ + μ) - (κ + κ) + (T + T) := by
        abel
      rw [e]
      exact N.add_mem (N.sub_mem (N.sub_mem (N.add_mem (N.add_mem h' h') h') h3) h2) hT

theorem Ker3.stable2 (hμ : Ker3 N μ) (h : κ + κ ∈ N) : Ker3 (N ⊔ AddSubgroup.zmultiples κ) μ := by
  have h3 := hμ.three
  refine ⟨AddSubgroup.mem_sup_left h3, ?_⟩
  rw [mem_sup2 h]
  rintro (h' | h')
  · exact hμ.ne h'
  · apply hμ.ne
    have e : μ = (μ + μ + μ) - ((μ - κ) + (μ - κ) + (κ + κ)) := by abel
    rw [e]; exact N.sub_mem h3 (N.add_mem (N.add_mem h' h') h)

theorem Ker3.stable4 (hμ : Ker3 N μ) (h : κ + κ + (κ + κ) ∈ N) :
    Ker3 (N ⊔ AddSubgroup.zmultiples κ) μ := by
  have := (hμ.stable2 h).stable2 (κ := κ) (AddSubgroup.mem_sup_right (AddSubgroup.mem_zmultiples _))
  rwa [sup_double] at this

theorem Ker4.stable (h : Ker4 N T κ) (hμ : Ker3 N μ) (hT : T + T ∈ N) :
    Ker4 (N ⊔ AddSubgroup.zmultiples μ) T κ := by
  have := h.fst.stable hμ hT
  exact ⟨this.two, this.ne, this.neT⟩

/-- going round the square of a degree two and a degree three quotient -/
theorem square23 (X : XRep A N T g) (h : Ker2 N T κ) (hμ : Ker3 N μ) :
    coef3 (2 - 4 * g κ ^ 2) (phi2 (g κ) (g μ)) = 2 - 4 * phi3 (g μ) (g κ) ^ 2 ∧
    ∀ P, P ∉ N ⊔ AddSubgroup.zmultiples κ ⊔ AddSubgroup.zmultiples μ →
      phi3 (phi2 (g κ) (g μ)) (phi2 (g κ) (g P)) = phi2 (phi3 (g μ) (g κ)) (phi3 (g μ) (g P)) := by
  have hκμ : g κ - g μ ≠ 0 := hμ.x_ne X (h.stable hμ X.T2).ne
  have hA := h.curve X
  have hb := hμ.psi X
  refine ⟨square_coef hA hb hκμ, ?_⟩
  intro P hP
  have hP1 : P ∉ N ⊔ AddSubgroup.zmultiples κ := fun h' => hP (AddSubgroup.mem_sup_left h')
  have hP2 : P ∉ N ⊔ AddSubgroup.zmultiples μ := by
    intro h'; apply hP
    rw [sup_right_comm]; exact AddSubgroup.mem_sup_left h'
  have xa := h.x_ne X hP1
  have xb := hμ.x_ne X hP2
  have hba : g μ - g κ ≠ 0 := by rw [← neg_ne_zero, neg_sub]; exact hκμ
  have hx := (hμ.stable2 h.two).x_ne (X.step2 h) hP
  refine square_pt hA hb (h.k_ne X) (hμ.k_ne X) xa xb hκμ ?_
  intro h0
  apply hx
  have f3 : phi2 (g κ) (g P) - phi2 (g κ) (g μ) =
      g κ * (g P - g μ) * (g P * g μ - g κ * (g P + g μ) + 1) / ((g P - g κ) * (g μ - g κ)) := by
    simp only [phi2]; field_simp; ring
  rw [f3, h0]
  simp

theorem phi3_neg (k x : K) : phi3 (-k) (-x) = -phi3 k x := by
  rw [phi3, phi3]
  have : -x - -k = -(x - k) := by ring
  rw [this, div_pow, div_pow, neg_sq, neg_mul_neg]
  ring

theorem coef3_neg (A k : K) : coef3 (-A) (-k) = -coef3 A k := by
  simp only [coef3]; ring

/-- going round the square of a degree four and a degree three quotient -/
theorem square43 (X : XRep A N T g) (h : Ker4 N T κ) (hμ : Ker3 N μ) :
    coef3 (coef4 (g κ)) (phi4 (g κ) (g μ)) = coef4 (phi3 (g μ) (g κ)) ∧
    ∀ P, P ∉ N ⊔ AddSubgroup.zmultiples κ ⊔ AddSubgroup.zmultiples μ →
      phi3 (phi4 (g κ) (g μ)) (phi4 (g κ) (g P)) = phi4 (phi3 (g μ) (g κ)) (phi3 (g μ) (g P)) := by
  obtain ⟨c1, p1⟩ := square23 X h.fst hμ
  have hμ' := hμ.stable2 h.four
  obtain ⟨c2, p2⟩ := square23 (X.step2 h.fst) (h.snd X.T2) hμ'
  have X3 := X.step3 hμ
  have h3 := h.stable hμ X.T2
  have hκ3 : κ ∉ N ⊔ AddSubgroup.zmultiples (κ + κ) ⊔ AddSubgroup.zmultiples μ := by
    have := (h3.snd (AddSubgroup.mem_sup_left X.T2)).ne
    rwa [sup_right_comm] at this
  have e1 := h.phi4_eq X (hμ.stable4 h.four).ne
  have ec := h.coef4_eq X
  have pκ := p1 κ hκ3
  constructor
  · rw [e1, ec, coef3_neg, c2, pκ, h3.coef4_eq X3]
  · intro P hP
    have hP1 : P ∉ N ⊔ AddSubgroup.zmultiples κ := fun h' => hP (AddSubgroup.mem_sup_left h')
    have hP3 : P ∉ N ⊔ AddSubgroup.zmultiples μ ⊔ AddSubgroup.zmultiples κ := by
      rwa [sup_right_comm]
    have hP' : P ∉ N ⊔ AddSubgroup.zmultiples (κ + κ) ⊔ AddSubgroup.zmultiples κ ⊔
        AddSubgroup.zmultiples μ := by rwa [sup_double]
    have hP'' : P ∉ N ⊔ AddSubgroup.zmultiples (κ + κ) ⊔ AddSubgroup.zmultiples μ := by
      intro h'; apply hP'
      rw [sup_right_comm]; exact AddSubgroup.mem_sup_left h'
    rw [e1, h.phi4_eq X hP1, phi3_neg, p2 P hP', pκ, p1 P hP'', h3.phi4_eq X3 hP3]

end Verif.XOnly
