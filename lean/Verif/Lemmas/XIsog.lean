import Verif.Lemmas.XOnly
import Mathlib.Algebra.Group.Subgroup.Lattice

/-!
Isogenies of degree two and three on the x-only representation of a Montgomery curve.
-/

namespace Verif.XOnly

variable {K : Type*} [Field K] {Γ : Type*} [AddCommGroup Γ]
variable {A : K} {N : AddSubgroup Γ} {T : Γ} {g : Γ → K}

namespace XRep

theorem four (X : XRep A N T g) : (4 : K) ≠ 0 := by
  intro h; apply X.two
  have : (2 : K) * 2 = 0 := by linear_combination h
  simpa using this

theorem inj (X : XRep A N T g) {P Q : Γ} (hP : P ∉ N) (hQ : Q ∉ N) (h : g P = g Q) :
    P + Q ∈ N ∨ P - Q ∈ N := by
  by_contra hc
  push Not at hc
  exact (X.add P Q hP hQ hc.1 hc.2).ne h

theorem eq_of_sub (X : XRep A N T g) {P Q : Γ} (hQ : Q ∉ N) (h : P - Q ∈ N) : g P = g Q := by
  have := X.shift Q (P - Q) hQ h
  rwa [add_sub_cancel] at this

theorem eq_of_add (X : XRep A N T g) {P Q : Γ} (hQ : Q ∉ N) (h : P + Q ∈ N) : g P = g Q := by
  rw [← X.neg Q hQ]
  exact X.eq_of_sub (fun h' => hQ (by simpa using N.neg_mem h')) (by simpa using h)

theorem of_zero (X : XRep A N T g) {P : Γ} (hP : P ∉ N) (h : g P = 0) : P - T ∈ N := by
  rcases X.inj hP X.TN (h.trans X.zero.symm) with h | h
  · have := N.sub_mem h X.T2
    have e : P + T - (T + T) = P - T := by abel
    rwa [e] at this
  · exact h

theorem ne_zero (X : XRep A N T g) {P : Γ} (hP : P ∉ N) (h : P - T ∉ N) : g P ≠ 0 :=
  fun h' => h (X.of_zero hP h')

theorem add_T_notMem (X : XRep A N T g) {P : Γ} (h : P - T ∉ N) : P + T ∉ N := by
  intro h'
  apply h
  have := N.sub_mem h' X.T2
  have e : P + T - (T + T) = P - T := by abel
  rwa [e] at this

theorem addT (X : XRep A N T g) {P : Γ} (hP : P ∉ N) (h : P - T ∉ N) : g (P + T) * g P = 1 := by
  have hs := X.add_T_notMem h
  have D := X.add P T hP X.TN hs h
  have e : g (P + T) = g (P - T) := X.eq_of_sub h (by
    have e : P + T - (P - T) = T + T := by abel
    rw [e]; exact X.T2)
  have h0 := X.ne_zero hP h
  have := D.sum
  rw [← e, X.zero] at this
  apply mul_right_cancel₀ (mul_ne_zero h0 X.two)
  linear_combination this

end XRep

/-! ### sign change -/

theorem XRep.flip (X : XRep A N T g) : XRep (-A) N T (fun P => -g P) := by
  refine ⟨X.two, X.T2, X.TN, by simp [X.zero], fun P hP => by rw [X.neg P hP],
    fun P n hP hn => by rw [X.shift P n hP hn], ?_, ?_, ?_⟩
  · intro P Q hP hQ hs hd
    obtain ⟨h1, h2, h3⟩ := X.add P Q hP hQ hs hd
    exact ⟨fun h => h1 (neg_injective h), by linear_combination h2, by linear_combination -h3⟩
  · intro P hP hPP
    obtain ⟨h1, h2⟩ := X.dbl P hP hPP
    have e : dblDen (-A) (-g P) = -dblDen A (g P) := by simp only [dblDen]; ring
    rw [e]
    exact ⟨neg_ne_zero.mpr h1, by linear_combination h2⟩
  · intro P hP hPP
    have h2 := X.dbl0 P hP hPP
    have e : dblDen (-A) (-g P) = -dblDen A (g P) := by simp only [dblDen]; ring
    rw [e, h2, neg_zero]

/-! ### degree two -/

/-- the quotient by the point of order two with x-coordinate `k` -/
def phi2 (k x : K) : K := x * (k * x - 1) / (x - k)

theorem mem_sup2 {κ P : Γ} (h : κ + κ ∈ N) :
    P ∈ N ⊔ AddSubgroup.zmultiples κ ↔ P ∈ N ∨ P - κ ∈ N := by
  rw [AddSubgroup.mem_sup]
  constructor
  · rintro ⟨n, hn, z, hz, rfl⟩
    obtain ⟨z, rfl⟩ := AddSubgroup.mem_zmultiples_iff.mp hz
    rcases Int.even_or_odd' z with ⟨c, rfl | rfl⟩
    · left
      have : (2 * c) • κ = c • (κ + κ) := by rw [mul_comm, mul_smul, two_smul]
      rw [this]
      exact N.add_mem hn (N.zsmul_mem h c)
    · right
      have : n + (2 * c + 1) • κ - κ = n + c • (κ + κ) := by
        rw [add_smul, one_smul, mul_comm, mul_smul, two_smul]; abel
      rw [this]
      exact N.add_mem hn (N.zsmul_mem h c)
  · rintro (h | h)
    · exact ⟨P, h, 0, AddSubgroup.zero_mem _, add_zero P⟩
    · exact ⟨P - κ, h, κ, AddSubgroup.mem_zmultiples κ, sub_add_cancel P κ⟩

structure Ker2 (N : AddSubgroup Γ) (T κ : Γ) : Prop where
  two : κ + κ ∈ N
  ne : κ ∉ N
  neT : κ - T ∉ N

section two
variable {κ : Γ}

theorem Ker2.k_ne (h : Ker2 N T κ) (X : XRep A N T g) : g κ ≠ 0 := X.ne_zero h.ne h.neT

theorem Ker2.curve (h : Ker2 N T κ) (X : XRep A N T g) : g κ ^ 2 + A * g κ + 1 = 0 := by
  have := X.dbl0 κ h.ne h.two
  rw [dblDen] at this
  have := (mul_eq_zero.mp this).resolve_left X.four
  exact (mul_eq_zero.mp this).resolve_left (h.k_ne X)

theorem Ker2.k_sq (h : Ker2 N T κ) (X : XRep A N T g) : g κ ^ 2 ≠ 1 := by
  intro h1
  have hT := X.addT h.ne h.neT
  have : g (κ + T) = g κ := by
    apply mul_right_cancel₀ (h.k_ne X)
    rw [hT, ← h1, sq]
  rcases X.inj (X.add_T_notMem h.neT) h.ne this with h' | h'
  · apply X.TN
    have := N.sub_mem h' h.two
    have e : κ + T + κ - (κ + κ) = T := by abel
    rwa [e] at this
  · apply X.TN
    have e : κ + T - κ = T := by abel
    rwa [e] at h'

theorem Ker2.split (h : Ker2 N T κ) {P : Γ} (hP : P ∉ N ⊔ AddSubgroup.zmultiples κ) :
    P ∉ N ∧ P - κ ∉ N ∧ P + κ ∉ N := by
  rw [mem_sup2 h.two] at hP
  push Not at hP
  refine ⟨hP.1, hP.2, fun h' => hP.2 ?_⟩
  have := N.sub_mem h' h.two
  have e : P + κ - (κ + κ) = P - κ := by abel
  rwa [e] at this

theorem Ker2.x_ne (h : Ker2 N T κ) (X : XRep A N T g) {P : Γ}
    (hP : P ∉ N ⊔ AddSubgroup.zmultiples κ) : g P - g κ ≠ 0 := by
  obtain ⟨h1, h2, h3⟩ := h.split hP
  intro h'
  rcases X.inj h1 h.ne (sub_eq_zero.mp h') with h' | h'
  · exact h3 h'
  · exact h2 h'

theorem Ker2.addK (h : Ker2 N T κ) (X : XRep A N T g) {P : Γ}
    (hP : P ∉ N ⊔ AddSubgroup.zmultiples κ) :
    g (P + κ) * (g P - g κ) = g κ * g P - 1 := by
  obtain ⟨h1, h2, h3⟩ := h.split hP
  have D := X.add P κ h1 h.ne h3 h2
  have e : g (P + κ) = g (P - κ) := X.eq_of_sub h2 (by
    have e : P + κ - (P - κ) = κ + κ := by abel
    rw [e]; exact h.two)
  have hs := D.sum
  rw [← e] at hs
  apply mul_right_cancel₀ (mul_ne_zero X.two (h.x_ne X hP))
  linear_combination hs + 4 * g P * h.curve X

theorem XRep.step2 (X : XRep A N T g) (h : Ker2 N T κ) :
    XRep (2 - 4 * g κ ^ 2) (N ⊔ AddSubgroup.zmultiples κ) T (fun P => phi2 (g κ) (g P)) := by
  have hle : N ≤ N ⊔ AddSubgroup.zmultiples κ := le_sup_left
  have hk0 := h.k_ne X
  have hk1 : g κ ^ 2 - 1 ≠ 0 := sub_ne_zero.mpr (h.k_sq X)
  have hc := h.curve X
  have hκ : κ ∈ N ⊔ AddSubgroup.zmultiples κ := AddSubgroup.mem_sup_right (AddSubgroup.mem_zmultiples κ)
  have den : ∀ p : K, p - g κ ≠ 0 → dblDen (2 - 4 * g κ ^ 2) (phi2 (g κ) p) * (p - g κ) ^ 3 =
      4 * (p * (g κ * p - 1)) * (g κ * (p ^ 2 - 2 * g κ * p + 1)) ^ 2 := by
    intro p hp
    simp only [dblDen, phi2]
    field_simp
    ring
  refine ⟨X.two, hle X.T2, ?_, by simp [phi2, X.zero], ?_, ?_, ?_, ?_, ?_⟩
  · rw [mem_sup2 h.two]
    rintro (h' | h')
    · exact X.TN h'
    · exact h.neT (by simpa using N.neg_mem h')
  · intro P hP
    simp only [X.neg P (h.split hP).1]
  · intro P n hP hn
    obtain ⟨h1, h2, h3⟩ := h.split hP
    rcases (mem_sup2 h.two).mp hn with hn | hn
    · simp only [X.shift P n h1 hn]
    · have e : P + n = (P + κ) + (n - κ) := by abel
      have hx := h.x_ne X hP
      have ha := h.addK X hP
      simp only [e, X.shift (P + κ) _ h3 hn]
      have hs : g (P + κ) = (g κ * g P - 1) / (g P - g κ) := by
        rw [eq_div_iff hx, ha]
      rw [hs]
      have hd : (g κ * g P - 1) / (g P - g κ) - g κ = (g κ ^ 2 - 1) / (g P - g κ) := by
        field_simp; ring
      rw [phi2, phi2, hd]
      field_simp
      ring
  · intro P Q hP hQ hs hd
    obtain ⟨hP1, hP2, hP3⟩ := h.split hP
    obtain ⟨hQ1, hQ2, hQ3⟩ := h.split hQ
    obtain ⟨hs1, hs2, hs3⟩ := h.split hs
    obtain ⟨hd1, hd2, hd3⟩ := h.split hd
    have D := X.add P Q hP1 hQ1 hs1 hd1
    have xP := h.x_ne X hP
    have xQ := h.x_ne X hQ
    have xs := h.x_ne X hs
    have xd := h.x_ne X hd
    have hf : g P * g Q - g κ * (g P + g Q) + 1 ≠ 0 := by
      intro h0
      have : g (P + κ) = g Q := by
        apply mul_right_cancel₀ xP
        rw [h.addK X hP]; linear_combination -h0
      rcases X.inj hP3 hQ1 this with h' | h'
      · exact hs3 (by have e : P + Q + κ = P + κ + Q := by abel
                      rwa [e])
      · exact hd3 (by have e : P - Q + κ = P + κ - Q := by abel
                      rwa [e])
    have hpq : g P - g Q ≠ 0 := sub_ne_zero.mpr D.ne
    have hA : A = -(g κ ^ 2 + 1) / g κ := by
      field_simp; linear_combination hc
    have hw : (g P - g Q) ^ 2 ≠ 0 := pow_ne_zero 2 hpq
    have fs : phi2 (g κ) (g P) - phi2 (g κ) (g Q) =
        g κ * (g P - g Q) * (g P * g Q - g κ * (g P + g Q) + 1) / ((g P - g κ) * (g Q - g κ)) := by
      simp only [phi2]; field_simp; ring
    refine ⟨?_, ?_, ?_⟩
    · rw [← sub_ne_zero, fs]
      exact div_ne_zero (mul_ne_zero (mul_ne_zero hk0 hpq) hf) (mul_ne_zero xP xQ)
    all_goals
      have d1 := D.prod
      have d2 := D.sum
      generalize g (P + Q) = s at *
      generalize g (P - Q) = d at *
      generalize g P = p at *
      generalize g Q = q at *
      generalize g κ = k at *
      have t1 : (s - k) * (d - k) * (p - q) ^ 2 = (p * q - k * (p + q) + 1) ^ 2 := by
        linear_combination d1 - k * d2 - 4 * p * q * hc
      have t2 : (k * s - 1) * (k * d - 1) * (p - q) ^ 2 = (k * p * q - (p + q) + k) ^ 2 := by
        linear_combination k ^ 2 * d1 - k * d2 - 4 * p * q * hc
    · rw [fs]
      have e : phi2 k s * phi2 k d = s * d * ((k * s - 1) * (k * d - 1)) / ((s - k) * (d - k)) := by
        simp only [phi2]; field_simp
      have e' : phi2 k s * phi2 k d * (p * q - k * (p + q) + 1) ^ 2 =
          s * d * (k * p * q - (p + q) + k) ^ 2 := by
        rw [e, ← t1, ← t2]; field_simp
      have e2 : phi2 k p * phi2 k q - 1 =
          k * (p * q - 1) * (k * p * q - (p + q) + k) / ((p - k) * (q - k)) := by
        simp only [phi2]; field_simp; ring
      rw [e2, div_pow, div_pow, mul_div_assoc']
      congr 1
      linear_combination k ^ 2 * (p - q) ^ 2 * e' + k ^ 2 * (k * p * q - (p + q) + k) ^ 2 * d1
    · rw [fs]
      have hf' : (p * q - k * (p + q) + 1) ^ 2 ≠ 0 := pow_ne_zero 2 hf
      have hN : (phi2 k s + phi2 k d) * (p * q - k * (p + q) + 1) ^ 2 =
          (s * (k * s - 1) * (d - k) + d * (k * d - 1) * (s - k)) * (p - q) ^ 2 := by
        rw [← t1]; simp only [phi2]; field_simp
      have hF : k * ((s + d) * (p - q) ^ 2) =
          2 * (k * (p * q + 1) * (p + q) - 2 * (k ^ 2 + 1) * (p * q)) := by
        linear_combination k * d2 + 4 * p * q * hc
      have hNw : (s * (k * s - 1) * (d - k) + d * (k * d - 1) * (s - k)) * (p - q) ^ 2 * (p - q) ^ 2 =
          (k * ((s + d) * (p - q) ^ 2)) * (s * d * (p - q) ^ 2) - (k * ((s + d) * (p - q) ^ 2)) ^ 2 +
            (2 * k ^ 2 - 2) * (s * d * (p - q) ^ 2) * (p - q) ^ 2 +
            (k * ((s + d) * (p - q) ^ 2)) * (p - q) ^ 2 := by ring
      rw [hF, d1] at hNw
      have e3 : (phi2 k s + phi2 k d) * (k * (p - q) * (p * q - k * (p + q) + 1) / ((p - k) * (q - k))) ^ 2 =
          k ^ 2 * (((phi2 k s + phi2 k d) * (p * q - k * (p + q) + 1) ^ 2) * (p - q) ^ 2) /
            ((p - k) * (q - k)) ^ 2 := by
        rw [div_pow, mul_div_assoc']; congr 1; ring
      rw [e3, hN, hNw]
      simp only [phi2]
      field_simp
      ring
  · intro P hP hPP
    obtain ⟨hP1, hP2, hP3⟩ := h.split hP
    obtain ⟨hPP1, hPP2, hPP3⟩ := h.split hPP
    have xP := h.x_ne X hP
    have xPP := h.x_ne X hPP
    obtain ⟨b1, b2⟩ := X.dbl P hP1 hPP1
    have dP := den (g P) xP
    have q1 : (g (P + P) - g κ) * dblDen A (g P) = (g P ^ 2 - 2 * g κ * g P + 1) ^ 2 := by
      rw [sub_mul, b2, dblDen]; linear_combination -4 * (g P) ^ 2 * hc
    have q2 : (g κ * g (P + P) - 1) * dblDen A (g P) * g κ = (g κ * g P ^ 2 - 2 * g P + g κ) ^ 2 := by
      rw [sub_mul, mul_assoc, b2, dblDen]; linear_combination -4 * (g P) ^ 2 * hc
    have q0 : g P ^ 2 - 2 * g κ * g P + 1 ≠ 0 := by
      intro h0
      rw [h0] at q1
      have := mul_ne_zero xPP b1
      rw [q1] at this
      simp at this
    have hb1 : g P * (g P ^ 2 + A * g P + 1) ≠ 0 := by
      intro h0; apply b1; rw [dblDen, h0, mul_zero]
    have kf : g κ * (g P ^ 2 + A * g P + 1) = (g κ * g P - 1) * (g P - g κ) := by
      linear_combination g P * hc
    have hp0 : g P ≠ 0 := left_ne_zero_of_mul hb1
    have hp1 : g κ * g P - 1 ≠ 0 := by
      intro h0
      rw [h0, zero_mul] at kf
      exact right_ne_zero_of_mul hb1 ((mul_eq_zero.mp kf).resolve_left hk0)
    have hden : dblDen A (g P) * g κ = 4 * g P * ((g κ * g P - 1) * (g P - g κ)) := by
      rw [dblDen, ← kf]; ring
    constructor
    · intro h0
      rw [h0, zero_mul] at dP
      have := mul_ne_zero (mul_ne_zero X.four (mul_ne_zero hp0 hp1))
        (pow_ne_zero 2 (mul_ne_zero hk0 q0))
      exact this dP.symm
    · have hd : dblDen (2 - 4 * g κ ^ 2) (phi2 (g κ) (g P)) =
          4 * (g P * (g κ * g P - 1)) * (g κ * (g P ^ 2 - 2 * g κ * g P + 1)) ^ 2 /
            (g P - g κ) ^ 3 := by
        rw [eq_div_iff (pow_ne_zero 3 xP), dP]
      rw [hd]
      have e : phi2 (g κ) (g (P + P)) =
          (g (P + P) * dblDen A (g P) * g κ) * ((g κ * g (P + P) - 1) * dblDen A (g P) * g κ) /
          ((g κ * (g (P + P) - g κ) * dblDen A (g P)) * (dblDen A (g P) * g κ)) := by
        rw [phi2]; field_simp
      have q1' : g κ * (g (P + P) - g κ) * dblDen A (g P) = g κ * (g P ^ 2 - 2 * g κ * g P + 1) ^ 2 := by
        rw [mul_assoc, q1]
      rw [e, q1', q2, b2, hden, phi2]
      have h4 := X.four
      generalize g P = p at *
      generalize g κ = k at *
      generalize p ^ 2 - 2 * k * p + 1 = u at *
      have e1 : (p * (k * p - 1) / (p - k)) ^ 2 - 1 =
          (p ^ 2 - 1) * (k * p ^ 2 - 2 * p + k) * k / (p - k) ^ 2 := by
        field_simp; ring
      have hp1' : p * k - 1 ≠ 0 := by rwa [mul_comm p k]
      rw [e1]
      field_simp
  · intro P hP hPP
    obtain ⟨hP1, hP2, hP3⟩ := h.split hP
    have xP := h.x_ne X hP
    have dP := den (g P) xP
    have fin : (g P * (g κ * g P - 1)) * (g κ * (g P ^ 2 - 2 * g κ * g P + 1)) ^ 2 = 0 →
        dblDen (2 - 4 * g κ ^ 2) (phi2 (g κ) (g P)) = 0 := by
      intro h0
      have : dblDen (2 - 4 * g κ ^ 2) (phi2 (g κ) (g P)) * (g P - g κ) ^ 3 = 0 := by
        rw [dP, mul_assoc, h0, mul_zero]
      exact (mul_eq_zero.mp this).resolve_right (pow_ne_zero 3 xP)
    apply fin
    by_cases hN : P + P ∈ N
    · have h0 := X.dbl0 P hP1 hN
      rw [dblDen] at h0
      have h0 := (mul_eq_zero.mp h0).resolve_left X.four
      have kf : g κ * (g P ^ 2 + A * g P + 1) = (g κ * g P - 1) * (g P - g κ) := by
        linear_combination g P * hc
      have : g P * (g κ * g P - 1) * (g P - g κ) = 0 := by
        rw [mul_assoc, ← kf]; linear_combination g κ * h0
      rw [(mul_eq_zero.mp this).resolve_right xP, zero_mul]
    · have hκ' := ((mem_sup2 h.two).mp hPP).resolve_left hN
      have e := X.eq_of_sub h.ne hκ'
      obtain ⟨b1, b2⟩ := X.dbl P hP1 hN
      have q1 : (g P ^ 2 - 2 * g κ * g P + 1) ^ 2 = (g (P + P) - g κ) * dblDen A (g P) := by
        rw [sub_mul, b2, dblDen]; linear_combination 4 * (g P) ^ 2 * hc
      rw [mul_pow, q1, e]; ring
end two

/-! ### degree three -/

/-- the quotient by the subgroup of order three whose x-coordinate is `k` -/
def phi3 (k x : K) : K := x * ((k * x - 1) / (x - k)) ^ 2

/-- coefficient of the quotient curve -/
def coef3 (A k : K) : K := k * (A * k - 6 * k ^ 2 + 6)

theorem mem_sup3 {κ P : Γ} (h : κ + κ + κ ∈ N) :
    P ∈ N ⊔ AddSubgroup.zmultiples κ ↔ P ∈ N ∨ P - κ ∈ N ∨ P + κ ∈ N := by
  rw [AddSubgroup.mem_sup]
  constructor
  · rintro ⟨n, hn, z, hz, rfl⟩
    obtain ⟨z, rfl⟩ := AddSubgroup.mem_zmultiples_iff.mp hz
    have key : ∀ c : ℤ, (3 * c) • κ = c • (κ + κ + κ) := by
      intro c
      rw [mul_comm, mul_smul]; congr 1; abel
    have hz : z = 3 * (z / 3) ∨ z = 3 * (z / 3) + 1 ∨ z = 3 * ((z + 1) / 3) - 1 := by omega
    rcases hz with h' | h' | h'
    · left
      rw [h', key]
      exact N.add_mem hn (N.zsmul_mem h _)
    · right; left
      have : n + z • κ - κ = n + (z / 3) • (κ + κ + κ) := by
        rw [← key, h', add_smul, one_smul, show (3 * (z / 3) + 1) / 3 = z / 3 by omega]; abel
      rw [this]
      exact N.add_mem hn (N.zsmul_mem h _)
    · right; right
      have : n + z • κ + κ = n + ((z + 1) / 3) • (κ + κ + κ) := by
        rw [← key, h', sub_smul, one_smul,
          show (3 * ((z + 1) / 3) - 1 + 1) / 3 = (z + 1) / 3 by omega]; abel
      rw [this]
      exact N.add_mem hn (N.zsmul_mem h _)
  · rintro (h | h | h)
    · exact ⟨P, h, 0, AddSubgroup.zero_mem _, add_zero P⟩
    · exact ⟨P - κ, h, κ, AddSubgroup.mem_zmultiples κ, sub_add_cancel P κ⟩
    · exact ⟨P + κ, h, -κ, AddSubgroup.neg_mem _ (AddSubgroup.mem_zmultiples κ), by abel⟩

structure Ker3 (N : AddSubgroup Γ) (κ : Γ) : Prop where
  three : κ + κ + κ ∈ N
  ne : κ ∉ N

/-- the third summation polynomial: zero when the three x-coordinates belong to points whose
signed sum is the neutral element -/
def summ (A u v w : K) : K :=
  (u - v) ^ 2 * w ^ 2 - 2 * ((u * v + 1) * (u + v) + 2 * A * (u * v)) * w + (u * v - 1) ^ 2

/-- the same polynomial with `w` replaced by `1 / w` -/
def summ' (A u v w : K) : K :=
  (u - v) ^ 2 - 2 * ((u * v + 1) * (u + v) + 2 * A * (u * v)) * w + (u * v - 1) ^ 2 * w ^ 2

theorem summ_comm13 (A u v w : K) : summ A u v w = summ A w v u := by
  simp only [summ]; ring

theorem DA.summ {p q s d : K} (D : DA A p q s d) (w : K) :
    summ A p q w = (p - q) ^ 2 * ((w - s) * (w - d)) := by
  rw [XOnly.summ]; linear_combination w * D.sum - D.prod

theorem DA.summ' {p q s d : K} (D : DA A p q s d) (w : K) :
    summ' A p q w = (p - q) ^ 2 * ((w * s - 1) * (w * d - 1)) := by
  rw [XOnly.summ']; linear_combination w * D.sum - w ^ 2 * D.prod

section three
variable {κ : Γ}

theorem Ker3.two_notMem (h : Ker3 N κ) : κ + κ ∉ N := by
  intro h'
  apply h.ne
  have := N.sub_mem h.three h'
  have e : κ + κ + κ - (κ + κ) = κ := by abel
  rwa [e] at this

theorem Ker3.psi (h : Ker3 N κ) (X : XRep A N T g) :
    3 * g κ ^ 4 + 4 * A * g κ ^ 3 + 6 * g κ ^ 2 - 1 = 0 := by
  obtain ⟨_, b⟩ := X.dbl κ h.ne h.two_notMem
  rw [X.eq_of_add h.ne h.three, dblDen] at b
  linear_combination b

theorem Ker3.k_ne (h : Ker3 N κ) (X : XRep A N T g) : g κ ≠ 0 := by
  intro h0
  have := h.psi X
  rw [h0] at this
  apply one_ne_zero (α := K)
  linear_combination -this

theorem Ker3.split (h : Ker3 N κ) {P : Γ} (hP : P ∉ N ⊔ AddSubgroup.zmultiples κ) :
    P ∉ N ∧ P - κ ∉ N ∧ P + κ ∉ N := by
  rw [mem_sup3 h.three] at hP
  push Not at hP
  exact hP

theorem Ker3.x_ne (h : Ker3 N κ) (X : XRep A N T g) {P : Γ}
    (hP : P ∉ N ⊔ AddSubgroup.zmultiples κ) : g P - g κ ≠ 0 := by
  obtain ⟨h1, h2, h3⟩ := h.split hP
  intro h'
  rcases X.inj h1 h.ne (sub_eq_zero.mp h') with h' | h'
  · exact h3 h'
  · exact h2 h'

theorem phi3_sub {k : K} (hk : 3 * k ^ 4 + 4 * A * k ^ 3 + 6 * k ^ 2 - 1 = 0) {x y : K}
    (hx : x - k ≠ 0) (hy : y - k ≠ 0) :
    phi3 k x - phi3 k y = k ^ 2 * (x - y) * summ A x y k / ((x - k) ^ 2 * (y - k) ^ 2) := by
  rw [phi3, phi3, summ]
  field_simp
  linear_combination (x * y * (x - y)) * hk

theorem phi3_mul {k : K} (hk : 3 * k ^ 4 + 4 * A * k ^ 3 + 6 * k ^ 2 - 1 = 0) {x y : K}
    (hx : x - k ≠ 0) (hy : y - k ≠ 0) :
    phi3 k x * phi3 k y - 1 = k ^ 2 * (x * y - 1) * summ' A x y k / ((x - k) ^ 2 * (y - k) ^ 2) := by
  rw [phi3, phi3, summ']
  field_simp
  linear_combination (x * y * (x * y - 1)) * hk

theorem XRep.step3 (X : XRep A N T g) (h : Ker3 N κ) :
    XRep (coef3 A (g κ)) (N ⊔ AddSubgroup.zmultiples κ) T (fun P => phi3 (g κ) (g P)) := by
  have hle : N ≤ N ⊔ AddSubgroup.zmultiples κ := le_sup_left
  have hk0 := h.k_ne X
  have hc := h.psi X
  have key : ∀ P, P ∉ N ⊔ AddSubgroup.zmultiples κ → phi3 (g κ) (g (P + κ)) = phi3 (g κ) (g P) := by
    intro P hP
    obtain ⟨h1, h2, h3⟩ := h.split hP
    have D := X.add P κ h1 h.ne h3 h2
    have hP' : P + κ ∉ N ⊔ AddSubgroup.zmultiples κ := by
      intro h'; apply hP
      have := AddSubgroup.sub_mem _ h' (AddSubgroup.mem_sup_right (AddSubgroup.mem_zmultiples κ))
      rwa [add_sub_cancel_right] at this
    rw [← sub_eq_zero, phi3_sub hc (h.x_ne X hP') (h.x_ne X hP)]
    have : summ A (g (P + κ)) (g P) (g κ) = summ A (g P) (g κ) (g (P + κ)) := by
      simp only [summ]; ring
    rw [this, D.summ]
    ring
  have den : ∀ p : K, p - g κ ≠ 0 → dblDen (coef3 A (g κ)) (phi3 (g κ) p) * (p - g κ) ^ 6 =
      dblDen A p * ((g κ * p - 1) * (g κ ^ 2 * p ^ 2 + (g κ - 3 * g κ ^ 3) * p + g κ ^ 2)) ^ 2 := by
    intro p hp
    have hA : A = (1 - 6 * g κ ^ 2 - 3 * g κ ^ 4) / (4 * g κ ^ 3) := by
      have := X.four
      field_simp; linear_combination hc
    have := X.four
    rw [hA]
    simp only [dblDen, phi3, coef3]
    field_simp
    ring
  refine ⟨X.two, hle X.T2, ?_, by simp [phi3, X.zero], ?_, ?_, ?_, ?_, ?_⟩
  · rw [mem_sup3 h.three]
    have h3 : T + T + T ∉ N := by
      intro h'; apply X.TN
      have := N.sub_mem h' X.T2
      have e : T + T + T - (T + T) = T := by abel
      rwa [e] at this
    rintro (h' | h' | h')
    · exact X.TN h'
    · apply h3
      have := N.add_mem (N.add_mem (N.add_mem h' h') h') h.three
      have e : T - κ + (T - κ) + (T - κ) + (κ + κ + κ) = T + T + T := by abel
      rwa [e] at this
    · apply h3
      have := N.sub_mem (N.add_mem (N.add_mem h' h') h') h.three
      have e : T + κ + (T + κ) + (T + κ) - (κ + κ + κ) = T + T + T := by abel
      rwa [e] at this
  · intro P hP
    simp only [X.neg P (h.split hP).1]
  · intro P n hP hn
    obtain ⟨h1, h2, h3⟩ := h.split hP
    rcases (mem_sup3 h.three).mp hn with hn | hn | hn
    · simp only [X.shift P n h1 hn]
    · have e : P + n = (P + κ) + (n - κ) := by abel
      simp only [e, X.shift (P + κ) _ h3 hn]
      exact key P hP
    · have e : P + n = (P - κ) + (n + κ) := by abel
      simp only [e, X.shift (P - κ) _ h2 hn]
      have hP' : P - κ ∉ N ⊔ AddSubgroup.zmultiples κ := by
        intro h'; apply hP
        have := AddSubgroup.add_mem _ h' (AddSubgroup.mem_sup_right (AddSubgroup.mem_zmultiples κ))
        rwa [sub_add_cancel] at this
      rw [← key (P - κ) hP', sub_add_cancel]
  · intro P Q hP hQ hs hd
    obtain ⟨hP1, hP2, hP3⟩ := h.split hP
    obtain ⟨hQ1, hQ2, hQ3⟩ := h.split hQ
    obtain ⟨hs1, hs2, hs3⟩ := h.split hs
    obtain ⟨hd1, hd2, hd3⟩ := h.split hd
    have D := X.add P Q hP1 hQ1 hs1 hd1
    have xP := h.x_ne X hP
    have xQ := h.x_ne X hQ
    have xs := h.x_ne X hs
    have xd := h.x_ne X hd
    have hpq : g P - g Q ≠ 0 := sub_ne_zero.mpr D.ne
    have hw : (g P - g Q) ^ 2 ≠ 0 := pow_ne_zero 2 hpq
    have hT := D.summ (g κ)
    have hT' := D.summ' (g κ)
    have hTne : summ A (g P) (g Q) (g κ) ≠ 0 := by
      rw [hT]
      refine mul_ne_zero hw (mul_ne_zero ?_ ?_)
      · rw [← neg_ne_zero, neg_sub]; exact xs
      · rw [← neg_ne_zero, neg_sub]; exact xd
    have fs := phi3_sub hc xP xQ
    have fm := phi3_mul hc xP xQ
    refine ⟨?_, ?_, ?_⟩
    · rw [← sub_ne_zero, fs]
      exact div_ne_zero (mul_ne_zero (mul_ne_zero (pow_ne_zero 2 hk0) hpq) hTne)
        (mul_ne_zero (pow_ne_zero 2 xP) (pow_ne_zero 2 xQ))
    · simp only [fs, fm]
      have e : phi3 (g κ) (g (P + Q)) * phi3 (g κ) (g (P - Q)) * summ A (g P) (g Q) (g κ) ^ 2 =
          g (P + Q) * g (P - Q) * summ' A (g P) (g Q) (g κ) ^ 2 := by
        rw [hT, hT', phi3, phi3]; field_simp; ring
      rw [div_pow, div_pow, mul_div_assoc']
      congr 1
      linear_combination g κ ^ 4 * (g P - g Q) ^ 2 * e +
        g κ ^ 4 * summ' A (g P) (g Q) (g κ) ^ 2 * D.prod
    · simp only [fs]
      have hA : A = (1 - 6 * g κ ^ 2 - 3 * g κ ^ 4) / (4 * g κ ^ 3) := by
        have := X.four
        field_simp; linear_combination hc
      have h4 := X.four
      have d1 := D.prod
      have d2 := D.sum
      clear fs fm hT' D
      generalize g (P + Q) = s at *
      generalize g (P - Q) = d at *
      generalize g P = p at *
      generalize g Q = q at *
      generalize g κ = k at *
      have hN : (phi3 k s + phi3 k d) * summ A p q k ^ 2 =
          (s * ((k * s - 1) * (d - k)) ^ 2 + d * ((k * d - 1) * (s - k)) ^ 2) * (p - q) ^ 4 := by
        rw [hT]; simp only [phi3]; field_simp; ring
      have hNw : (s * ((k * s - 1) * (d - k)) ^ 2 + d * ((k * d - 1) * (s - k)) ^ 2) * (p - q) ^ 4 *
            (p - q) ^ 2 =
          ((s + d) * (p - q) ^ 2) * (k * (s * d * (p - q) ^ 2) + k * (p - q) ^ 2) ^ 2 -
          2 * (k * (s * d * (p - q) ^ 2) + k * (p - q) ^ 2) * (k ^ 2 * ((s + d) * (p - q) ^ 2) ^ 2 +
            (2 - 2 * k ^ 2) * (s * d * (p - q) ^ 2) * (p - q) ^ 2) +
          k ^ 4 * (((s + d) * (p - q) ^ 2) ^ 3 -
            3 * ((s + d) * (p - q) ^ 2) * (s * d * (p - q) ^ 2) * (p - q) ^ 2) +
          (2 * k ^ 2 + 1) * ((s + d) * (p - q) ^ 2) * (s * d * (p - q) ^ 2) * (p - q) ^ 2 := by ring
      rw [d1, d2] at hNw
      have e3 : (phi3 k s + phi3 k d) *
            (k ^ 2 * (p - q) * summ A p q k / ((p - k) ^ 2 * (q - k) ^ 2)) ^ 2 =
          k ^ 4 * ((phi3 k s + phi3 k d) * summ A p q k ^ 2 * (p - q) ^ 2) /
            ((p - k) ^ 2 * (q - k) ^ 2) ^ 2 := by
        rw [div_pow, mul_div_assoc']; congr 1; ring
      rw [e3, hN, hNw, hA]
      simp only [phi3, coef3]
      field_simp
      ring
  · intro P hP hPP
    obtain ⟨hP1, hP2, hP3⟩ := h.split hP
    obtain ⟨hPP1, hPP2, hPP3⟩ := h.split hPP
    have xP := h.x_ne X hP
    have xPP := h.x_ne X hPP
    obtain ⟨b1, b2⟩ := X.dbl P hP1 hPP1
    have dP := den (g P) xP
    have q1 : (g (P + P) - g κ) * dblDen A (g P) * g κ ^ 3 =
        ((g κ * g P - 1) * (g κ ^ 2 * g P ^ 2 + (g κ - 3 * g κ ^ 3) * g P + g κ ^ 2)) * (g P - g κ) := by
      rw [sub_mul, b2, dblDen]; linear_combination -(g P) ^ 2 * g κ * hc
    have q2 : (g P ^ 2 - 1) * ((g κ * g (P + P) - 1) * dblDen A (g P) * g κ ^ 3) =
        (phi3 (g κ) (g P) ^ 2 - 1) * (g P - g κ) ^ 4 := by
      have e : phi3 (g κ) (g P) ^ 2 * (g P - g κ) ^ 4 = g P ^ 2 * (g κ * g P - 1) ^ 4 := by
        rw [phi3]; field_simp
      have e' : (g κ * g (P + P) - 1) * dblDen A (g P) =
          g κ * (g P ^ 2 - 1) ^ 2 - 4 * (g P * (g P ^ 2 + A * g P + 1)) := by
        rw [sub_mul, mul_assoc, b2, dblDen, one_mul]
      rw [e']
      linear_combination -(g P ^ 2 - 1) * (g P) ^ 2 * hc - e
    have hM : (g κ * g P - 1) * (g κ ^ 2 * g P ^ 2 + (g κ - 3 * g κ ^ 3) * g P + g κ ^ 2) ≠ 0 := by
      intro h0
      rw [h0, zero_mul] at q1
      exact mul_ne_zero (mul_ne_zero xPP b1) (pow_ne_zero 3 hk0) q1
    have h6 : (g P - g κ) ^ 6 ≠ 0 := pow_ne_zero 6 xP
    constructor
    · intro h0
      rw [h0, zero_mul] at dP
      exact mul_ne_zero b1 (pow_ne_zero 2 hM) dP.symm
    · apply mul_right_cancel₀ (pow_ne_zero 8 xP)
      have e1 : phi3 (g κ) (g (P + P)) * (g (P + P) - g κ) ^ 2 =
          g (P + P) * (g κ * g (P + P) - 1) ^ 2 := by
        rw [phi3]; field_simp
      have e2 : ((phi3 (g κ) (g P) ^ 2 - 1) * (g P - g κ) ^ 4) ^ 2 =
          (phi3 (g κ) (g P) ^ 2 - 1) ^ 2 * (g P - g κ) ^ 8 := by ring
      rw [← e2, ← q2]
      have e3 : phi3 (g κ) (g (P + P)) * dblDen (coef3 A (g κ)) (phi3 (g κ) (g P)) * (g P - g κ) ^ 8 =
          phi3 (g κ) (g (P + P)) * (dblDen (coef3 A (g κ)) (phi3 (g κ) (g P)) * (g P - g κ) ^ 6) *
            (g P - g κ) ^ 2 := by ring
      rw [e3, dP]
      have e4 : phi3 (g κ) (g (P + P)) * (dblDen A (g P) * ((g κ * g P - 1) *
            (g κ ^ 2 * g P ^ 2 + (g κ - 3 * g κ ^ 3) * g P + g κ ^ 2)) ^ 2) * (g P - g κ) ^ 2 =
          phi3 (g κ) (g (P + P)) * dblDen A (g P) * (((g κ * g P - 1) *
            (g κ ^ 2 * g P ^ 2 + (g κ - 3 * g κ ^ 3) * g P + g κ ^ 2)) * (g P - g κ)) ^ 2 := by ring
      rw [e4, ← q1]
      have e5 : phi3 (g κ) (g (P + P)) * dblDen A (g P) *
            ((g (P + P) - g κ) * dblDen A (g P) * g κ ^ 3) ^ 2 =
          (phi3 (g κ) (g (P + P)) * (g (P + P) - g κ) ^ 2) * dblDen A (g P) ^ 3 * g κ ^ 6 := by ring
      rw [e5, e1]
      have e6 : g (P + P) * (g κ * g (P + P) - 1) ^ 2 * dblDen A (g P) ^ 3 * g κ ^ 6 =
          (g (P + P) * dblDen A (g P)) * ((g κ * g (P + P) - 1) * dblDen A (g P) * g κ ^ 3) ^ 2 := by
        ring
      rw [e6, b2]
      ring
  · intro P hP hPP
    obtain ⟨hP1, hP2, hP3⟩ := h.split hP
    have xP := h.x_ne X hP
    have dP := den (g P) xP
    have h6 : (g P - g κ) ^ 6 ≠ 0 := pow_ne_zero 6 xP
    have hz : dblDen (coef3 A (g κ)) (phi3 (g κ) (g P)) * (g P - g κ) ^ 6 = 0 → _ :=
      fun h => (mul_eq_zero.mp h).resolve_right h6
    apply hz
    rw [dP]
    by_cases hN : P + P ∈ N
    · rw [X.dbl0 P hP1 hN, zero_mul]
    · have e : g (P + P) = g κ := by
        rcases (mem_sup3 h.three).mp hPP with h' | h' | h'
        · exact absurd h' hN
        · exact X.eq_of_sub h.ne h'
        · exact X.eq_of_add h.ne h'
      obtain ⟨b1, b2⟩ := X.dbl P hP1 hN
      have q1 : (g (P + P) - g κ) * dblDen A (g P) * g κ ^ 3 =
          ((g κ * g P - 1) * (g κ ^ 2 * g P ^ 2 + (g κ - 3 * g κ ^ 3) * g P + g κ ^ 2)) *
            (g P - g κ) := by
        rw [sub_mul, b2, dblDen]; linear_combination -(g P) ^ 2 * g κ * hc
      rw [e, sub_self, zero_mul, zero_mul] at q1
      rw [(mul_eq_zero.mp q1.symm).resolve_right xP]
      ring
end three

end Verif.XOnly
