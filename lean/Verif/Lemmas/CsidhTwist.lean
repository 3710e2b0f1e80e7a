import Verif.Lemmas.CsidhCancel

/-!
The quadratic twist: with the opposite exponents the action reaches the curve with the opposite coefficient.
-/

namespace Lemmas.CsidhTwist

open Model Model.Limb Model.Csidh Lemmas.CsidhNat Lemmas.CsidhIso Lemmas.CsidhCof Lemmas.CsidhField Lemmas.CsidhAction
  Lemmas.CsidhOrbit Lemmas.CsidhCount Lemmas.CsidhMade Lemmas.CsidhAgree Lemmas.CsidhCancel Verif.XOnly Verif.Colon Spec Spec.Csidh Finset

local notation "𝕡" => Spec.Csidh.p

variable {K : Type} [Field K] [Algebra (ZMod 𝕡) K] {Γ : Type} [AddCommGroup Γ] {A A' : K} {N : AddSubgroup Γ} {π : Γ →+ Γ} {T τ κ : Γ} {g g0 y : Γ → K}

theorem eig_neg_hom (s : Bool) (P : Γ) : eig (-π) s P = -eig π (!s) P := by
  cases s
  · rw [eig_false, Bool.not_false, eig_true, AddMonoidHom.neg_apply]; abel
  · rw [eig_true, Bool.not_true, eig_false, AddMonoidHom.neg_apply]; abel

theorem colon_neg (ℓ : ℕ) (s : Bool) : colon (-π) N ℓ (!s) = colon π N ℓ s := by
  ext P
  rw [mem_colon, mem_colon, eig_neg_hom, Bool.not_not, neg_mem_iff]

theorem colons_neg (L : List (ℕ × Bool)) : ∀ N : AddSubgroup Γ, colons (-π) N (L.map rev) = colons π N L := by
  induction L with
  | nil => intro N; rfl
  | cons e L ih =>
    intro N
    show colons (-π) (colon (-π) N e.1 (!e.2)) (L.map rev) = colons π (colon π N e.1 e.2) L
    rw [colon_neg, ih]

theorem card_neg (hcard : ∀ s, Nat.card (eig π s).ker = 𝕡 + 1) (s : Bool) : Nat.card (eig (-π) s).ker = 𝕡 + 1 := by
  rw [← hcard (!s)]
  refine congrArg (fun H : AddSubgroup Γ => Nat.card H) ?_
  ext P
  rw [AddMonoidHom.mem_ker, AddMonoidHom.mem_ker, eig_neg_hom, neg_eq_zero]

/-- the subgroups have odd order -/
theorem colons_odd (L : List (ℕ × Bool)) (hL : ∀ e ∈ L, ∃ i < 74, e.1 = el i) : ∃ m, m % 2 = 1 ∧ ∀ P ∈ colons π ⊥ L, m • P = 0 := by
  induction L using List.reverseRecOn with
  | nil =>
    refine ⟨1, rfl, fun P hP => ?_⟩
    rw [one_smul]
    exact AddSubgroup.mem_bot.mp hP
  | append_singleton L e ih =>
    obtain ⟨m, hm, h⟩ := ih fun x hx => hL x (List.mem_append_left _ hx)
    obtain ⟨i, hi, he⟩ := hL e (List.mem_append_right _ (List.mem_singleton_self e))
    refine ⟨m * e.1, by rw [Nat.mul_mod, hm, he, el_odd hi], fun P hP => ?_⟩
    rw [colons_snoc, mem_colon] at hP
    rw [mul_smul]
    exact h _ hP.2

theorem card_odd {m : ℕ} (hm : m % 2 = 1) (hN : ∀ P ∈ N, m • P = 0) [Finite N] : Odd (Nat.card N) := by
  rw [← Nat.not_even_iff_odd]
  intro h
  haveI := Fact.mk Nat.prime_two
  obtain ⟨x, hx⟩ := exists_prime_addOrderOf_dvd_card' (G := N) 2 h.two_dvd
  have : 2 ∣ m := by
    rw [← hx]
    exact addOrderOf_dvd_of_nsmul_eq_zero (Subtype.ext (hN x.1 x.2))
  omega

theorem iso_neg {i : K} (hi : i ^ 2 = -1) (hf : frob 𝕡 K i = -i) (I : Iso (frob 𝕡 K) π A N T τ g y) :
    Iso (frob 𝕡 K) (-π) (-A) N T τ (fun P => -g P) (fun P => i * y P) where
  x := I.x.flip
  t := I.t
  fin := I.fin
  surj u := by
    obtain ⟨P, hP, h⟩ := I.surj (-u)
    exact ⟨P, hP, by rw [h, neg_neg]⟩
  ysq P hP := by
    have := I.ysq P hP
    linear_combination i ^ 2 * this + g P * (g P ^ 2 + A * g P + 1) * hi
  yneg P hP := by rw [I.yneg P hP]; ring
  yshift P n hP hn := by rw [I.yshift P n hP hn]
  stab P := by rw [AddMonoidHom.neg_apply, neg_mem_iff]; exact I.stab P
  gfrob P hP := by
    have hπ : π P ∉ N := fun h => hP ((I.stab P).mp h)
    rw [AddMonoidHom.neg_apply, I.x.neg _ hπ, I.gfrob P hP, map_neg]
  yfrob P hP := by
    have hπ : π P ∉ N := fun h => hP ((I.stab P).mp h)
    rw [AddMonoidHom.neg_apply, I.yneg _ hπ, I.yfrob P hP, map_mul, hf]; ring

theorem good_neg {i : K} (hi : i ^ 2 = -1) (hf : frob 𝕡 K i = -i) {L : List (ℕ × Bool)} (hL : ∀ e ∈ L, ∃ i < 74, e.1 = el i) (h : Good π T τ g0 A L) :
    Good (-π) T τ (fun P => -g0 P) (-A) (L.map rev) := by
  obtain ⟨N, g, y, I, hN, hfin, c⟩ := h
  refine ⟨N, _, _, iso_neg hi hf I, by rw [colons_neg, hN], hfin, fun P hP => ?_⟩
  obtain ⟨m, hm, h0⟩ := colons_odd (π := π) L hL
  rw [← hN] at h0
  haveI : Finite N := hfin
  have ho := card_odd hm h0
  have hc : hfin.toFinset.card = Nat.card N := by
    rw [← Set.ncard_eq_toFinset_card _ hfin]; rfl
  rw [prod_neg, hc, ho.neg_one_pow, neg_one_mul]
  exact congrArg Neg.neg (c P hP)

theorem frob_i {i : K} (hi : i ^ 2 = -1) : frob 𝕡 K i = -i := by
  have hp := Lemmas.CsidhPrime.p_mod4
  rw [frob_eq]
  obtain ⟨q, hq⟩ : ∃ q, 𝕡 = q * 4 + 3 := ⟨𝕡 / 4, by omega⟩
  have : i ^ 𝕡 = i ^ (2 * (2 * q + 1)) * i := by
    rw [← pow_succ]; congr 1; omega
  rw [this, pow_mul, hi, Odd.neg_one_pow ⟨q, rfl⟩]
  ring

theorem orbit_neg {l l' : List PrivateKey} {pk pk' : PublicKey} (h : Orbit l pk) (h' : Orbit l' pk')
    (ht : ∀ i < 74, (l.map fun sk => exponent sk.e i).sum = -(l'.map fun sk => exponent sk.e i).sum) : ∃ a, IsElt pk.a a ∧ IsElt pk'.a (-a) := by
  obtain ⟨α, ha, L, hL, H⟩ := h
  obtain ⟨α', ha', L', hL', H'⟩ := h'
  obtain ⟨Γ, _, π, T, τ, g0, hc, hb⟩ := base
  obtain ⟨i, hi⟩ := IsAlgClosed.exists_pow_nat_eq (-1 : F) (n := 2) (by decide)
  have hf := frob_i hi
  have g1 := good_neg hi hf hL.mem (H Γ _ π T τ g0 hc hb)
  have hb' : Good (-π) T τ (fun P => -g0 P) (0 : F) [] := by
    have := good_neg hi hf (L := []) (by simp) hb
    rwa [neg_zero] at this
  have g2 := H' Γ _ (-π) T τ _ (card_neg hc) hb'
  have hm : ∀ e ∈ L.map rev, ∃ i < 74, e.1 = el i := by
    intro e he
    obtain ⟨x, hx, rfl⟩ := List.mem_map.mp he
    exact hL.mem x hx
  have := good_balanced (card_neg hc) hb' hm hL'.mem ?_ g1 g2
  · rw [← map_neg] at this
    have := (algebraMap (ZMod 𝕡) F).injective this
    subst this
    exact ⟨α, ha, ha'⟩
  · rintro ⟨d, s⟩
    rw [count_map_rev, count_map_rev, rev_rev]
    by_cases hd : ∃ i < 74, d = (word primes i).toNat
    · obtain ⟨i, hi, rfl⟩ := hd
      have e1 := total_net l i
      have e2 := total_net l' i
      have e3 := ht i hi
      rw [← e1, ← e2] at e3
      have c1 := hL.count i hi
      have c2 := hL'.count i hi
      simp only [rev, c1, c2]
      cases s
      · simp only [Bool.not_false]; omega
      · simp only [Bool.not_true]; omega
    · have z : ∀ s, L.count (d, s) = 0 ∧ L'.count (d, s) = 0 := fun s =>
        ⟨List.count_eq_zero.mpr fun hm => hd (hL.mem _ hm), List.count_eq_zero.mpr fun hm => hd (hL'.mem _ hm)⟩
      simp only [rev, z]

end Lemmas.CsidhTwist
