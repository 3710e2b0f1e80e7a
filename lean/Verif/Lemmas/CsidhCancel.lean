import Verif.Lemmas.XCancel
import Verif.Lemmas.CsidhCount
import Verif.Lemmas.CsidhMade

/-!
Isogenies of the same degree and opposite directions cancel: the curve reached depends only on the sums of the exponents.
-/

namespace Lemmas.CsidhCancel

open Model Model.Limb Model.Csidh Lemmas.CsidhNat Lemmas.CsidhIso Lemmas.CsidhCof Lemmas.CsidhField Lemmas.CsidhAction
  Lemmas.CsidhOrbit Lemmas.CsidhCount Lemmas.CsidhMade Lemmas.CsidhAgree Verif.XOnly Verif.Colon Spec Spec.Csidh Finset

local notation "𝕡" => Spec.Csidh.p

variable {K : Type} [Field K] [Algebra (ZMod 𝕡) K] {Γ : Type} [AddCommGroup Γ] {A A' : K} {N : AddSubgroup Γ} {π : Γ →+ Γ} {T τ κ : Γ} {g g0 y : Γ → K}

theorem dvd_of_smul {ℓ m : ℕ} (hl : ℓ.Prime) (hκ : κ ∉ N) (h : ℓ • κ ∈ N) (hm : m • κ ∈ N) : ℓ ∣ m := by
  by_contra hd
  have hc : Nat.Coprime m ℓ := Nat.Coprime.symm ((Nat.Prime.coprime_iff_not_dvd hl).mpr hd)
  apply hκ
  have e := Nat.gcd_eq_gcd_ab m ℓ
  rw [hc.gcd_eq_one] at e
  have : (1 : ℤ) • κ ∈ N := by
    have e' : (1 : ℤ) = (m.gcdA ℓ) * m + (m.gcdB ℓ) * ℓ := by
      rw [mul_comm, mul_comm (m.gcdB ℓ)]; exact_mod_cast e
    rw [e', add_smul, mul_smul, mul_smul, natCast_zsmul, natCast_zsmul]
    exact N.add_mem (N.zsmul_mem hm _) (N.zsmul_mem h _)
  rwa [one_smul] at this

/-- the curve is defined over the prime field -/
theorem rational (I : Iso (frob 𝕡 K) π A N T τ g y) : ∃ a : ZMod 𝕡, algebraMap (ZMod 𝕡) K a = A := by
  obtain ⟨P, hP, h1⟩ := I.surj 1
  have hπ : π P ∉ N := fun h => hP ((I.stab P).mp h)
  have e1 := I.ysq P hP
  have e2 := I.ysq _ hπ
  have hg : g (π P) = 1 := by rw [I.gfrob P hP, h1, map_one]
  rw [I.yfrob P hP, hg, ← map_pow, e1, h1] at e2
  simp only [map_mul, map_add, map_one, one_pow, one_mul, mul_one] at e2
  exact frob_fix (by linear_combination e2)

theorem el_le {i : ℕ} (hi : i < 74) : el i ≤ 587 := by
  have : ∀ i < 74, el i ≤ 587 := by decide +kernel
  exact this i hi

theorem el_top : el 73 = 587 ∧ el 72 = 373 ∧ el 71 = 367 := by decide +kernel

/-- the sum of points of three prime orders -/
theorem dvd_three {a b c : ℕ} (ha : a.Prime) (hb : b.Prime) (hc : c.Prime) (hab : a ≠ b) (hac : a ≠ c) (hbc : b ≠ c) {κ1 κ2 κ3 : Γ} (n1 : κ1 ∉ N) (n2 : κ2 ∉ N) (n3 : κ3 ∉ N)
    (h1 : a • κ1 ∈ N) (h2 : b • κ2 ∈ N) (h3 : c • κ3 ∈ N) {j : ℕ} (hj : j • (κ1 + κ2 + κ3) ∈ N) : a * b * c ∣ j := by
  have key : ∀ {a b c : ℕ}, a.Prime → b.Prime → c.Prime → a ≠ b → a ≠ c → ∀ {κ1 κ2 κ3 : Γ}, κ1 ∉ N → a • κ1 ∈ N → b • κ2 ∈ N → c • κ3 ∈ N → j • (κ1 + κ2 + κ3) ∈ N → a ∣ j := by
    intro a b c ha hb hc hab hac κ1 κ2 κ3 n1 h1 h2 h3 hj
    have : a ∣ b * c * j := by
      refine dvd_of_smul ha n1 h1 ?_
      have := N.sub_mem (N.sub_mem (N.nsmul_mem hj (b * c)) (N.nsmul_mem h2 (c * j))) (N.nsmul_mem h3 (b * j))
      have e : (b * c) • j • (κ1 + κ2 + κ3) - (c * j) • b • κ2 - (b * j) • c • κ3 = (b * c * j) • κ1 := by
        simp only [← mul_smul, smul_add]
        rw [show c * j * b = b * c * j by ring, show b * j * c = b * c * j by ring]
        abel
      rwa [e] at this
    rcases (Nat.Prime.dvd_mul ha).mp this with h | h
    · rcases (Nat.Prime.dvd_mul ha).mp h with h | h
      · exact absurd ((Nat.prime_dvd_prime_iff_eq ha hb).mp h) hab
      · exact absurd ((Nat.prime_dvd_prime_iff_eq ha hc).mp h) hac
    · exact h
  have d1 := key ha hb hc hab hac n1 h1 h2 h3 hj
  have d2 := key hb ha hc hab.symm hbc n2 h2 h1 h3 (by rwa [add_comm κ2 κ1])
  have d3 := key hc ha hb hac.symm hbc.symm n3 h3 h1 h2 (by rwa [add_assoc, add_comm])
  have cab : Nat.Coprime a b := (Nat.coprime_primes ha hb).mpr hab
  have cac : Nat.Coprime a c := (Nat.coprime_primes ha hc).mpr hac
  have cbc : Nat.Coprime b c := (Nat.coprime_primes hb hc).mpr hbc
  exact (Nat.Coprime.mul_left cac cbc).mul_dvd_of_dvd_of_dvd (cab.mul_dvd_of_dvd_of_dvd d1 d2) d3

variable [IsAlgClosed K]

/-- a point of large order -/
theorem exists_large (hcard : ∀ s, Nat.card (eig π s).ker = 𝕡 + 1) (I : Iso (frob 𝕡 K) π A N T τ g y) : ∃ Q, ∀ j, 0 < j → j ≤ 4 * 587 ^ 2 → j • Q ∉ N := by
  obtain ⟨a, hA⟩ := rational I
  obtain ⟨e1, e2, e3⟩ := el_top
  obtain ⟨κ1, -, a1, b1⟩ := exists_full hcard I hA true (i := 73) (by decide)
  obtain ⟨κ2, -, a2, b2⟩ := exists_full hcard I hA true (i := 72) (by decide)
  obtain ⟨κ3, -, a3, b3⟩ := exists_full hcard I hA true (i := 71) (by decide)
  refine ⟨κ1 + κ2 + κ3, fun j h0 hj hm => ?_⟩
  have := Nat.le_of_dvd h0 (dvd_three (el_prime (by decide)) (el_prime (by decide)) (el_prime (by decide)) (by rw [e1, e2]; decide) (by rw [e1, e3]; decide) (by rw [e2, e3]; decide)
    b1 b2 b3 a1 a2 a3 hm)
  rw [e1, e2, e3] at this
  exact absurd (this.trans hj) (by decide)

theorem colons_snoc (L : List (ℕ × Bool)) (e : ℕ × Bool) : colons π ⊥ (L ++ [e]) = colon π (colons π ⊥ L) e.1 e.2 := by
  rw [colons, List.foldl_append]; rfl

/-- one isogeny -/
theorem good_iso (hcard : ∀ s, Nat.card (eig π s).ker = 𝕡 + 1) (I : Iso (frob 𝕡 K) π A N T τ g y) {i : ℕ} (hi : i < 74) {s : Bool} (hκ : κ ∉ N) (h1 : el i • κ ∈ N) (h2 : eig π s κ ∈ N) :
    ∃ d, el i = 2 * d + 1 ∧ KerOdd N κ d ∧ Eig π N κ ∧ N ⊔ AddSubgroup.zmultiples κ = colon π N (el i) s := by
  have hl := el_prime hi
  obtain ⟨d, hd⟩ : ∃ d, el i = 2 * d + 1 := ⟨el i / 2, by have := el_odd hi; omega⟩
  haveI : Finite N := I.fin
  obtain ⟨m, hm0, hm1, hm2⟩ := el_once hi
  exact ⟨d, hd, kerOdd_of_prime hl hd hκ h1, eig_Eig h2, sup_eq hl hm1 hm0 (by rw [hcard, hm2]) (fun Q hQ => (I.stab Q).mpr hQ) hκ h1 h2⟩

theorem good_step (hcard : ∀ s, Nat.card (eig π s).ker = 𝕡 + 1) {L : List (ℕ × Bool)} (h : Good π T τ g0 A L) {i : ℕ} (hi : i < 74) (s : Bool) :
    ∃ A', Good π T τ g0 A' (L ++ [(el i, s)]) := by
  obtain ⟨N, g, y, I, hN, c⟩ := h
  obtain ⟨a, hA⟩ := rational I
  obtain ⟨κ, h2, h1, hκ⟩ := exists_full hcard I hA s hi
  obtain ⟨d, hd, ko, ke, hs⟩ := good_iso hcard I hi hκ h1 h2
  exact ⟨_, _, _, _, I.step ko ke, by rw [hs, hN, colons_snoc], canon_step I.x ko c⟩

theorem good_exists (hcard : ∀ s, Nat.card (eig π s).ker = 𝕡 + 1) (h0 : Good π T τ g0 A []) (L : List (ℕ × Bool)) (hL : ∀ e ∈ L, ∃ i < 74, e.1 = el i) :
    ∃ A', Good π T τ g0 A' L := by
  induction L using List.reverseRecOn with
  | nil => exact ⟨_, h0⟩
  | append_singleton L e ih =>
    obtain ⟨A', h⟩ := ih fun x hx => hL x (List.mem_append_left _ hx)
    obtain ⟨i, hi, he⟩ := hL e (List.mem_append_right _ (List.mem_singleton_self e))
    obtain ⟨A'', h'⟩ := good_step hcard h hi e.2
    rw [← he] at h'
    exact ⟨A'', h'⟩

/-- an isogeny and the one of the same degree and the opposite direction -/
theorem good_pair (hcard : ∀ s, Nat.card (eig π s).ker = 𝕡 + 1) {L : List (ℕ × Bool)} (h : Good π T τ g0 A L) {i : ℕ} (hi : i < 74) (s : Bool) :
    Good π T τ g0 A (L ++ [(el i, s), (el i, !s)]) := by
  obtain ⟨N, g, y, I, hN, c⟩ := h
  obtain ⟨a, hA⟩ := rational I
  obtain ⟨κ, h2, h1, hκ⟩ := exists_full hcard I hA s hi
  obtain ⟨κ', h2', h1', hκ'⟩ := exists_full hcard I hA (!s) hi
  obtain ⟨d, hd, ko, ke, hs⟩ := good_iso hcard I hi hκ h1 h2
  have I1 := I.step ko ke
  have hle : N ≤ N ⊔ AddSubgroup.zmultiples κ := le_sup_left
  -- the second point is independent of the first
  have hκ1 : κ' ∉ N ⊔ AddSubgroup.zmultiples κ := by
    intro hm
    have h3 : eig π s κ' ∈ N := by rw [hs] at hm; exact hm.1
    have h4 : κ' + κ' ∈ N := by
      cases s
      · rw [eig_false] at h3; rw [Bool.not_false, eig_true] at h2'
        have := N.sub_mem h2' h3
        rwa [show π κ' + κ' - (π κ' - κ') = κ' + κ' by abel] at this
      · rw [eig_true] at h3; rw [Bool.not_true, eig_false] at h2'
        have := N.sub_mem h3 h2'
        rwa [show π κ' + κ' - (π κ' - κ') = κ' + κ' by abel] at this
    have := dvd_of_smul (m := 2) (el_prime hi) hκ' h1' (by rw [two_smul]; exact h4)
    have h5 := (el_prime hi).two_le
    have h6 := el_odd hi
    have h7 := Nat.le_of_dvd (by decide) this
    omega
  obtain ⟨d', hd', ko', ke', hs'⟩ := good_iso hcard I1 hi hκ1 (hle h1') (hle h2')
  obtain rfl : d = d' := by omega
  have I2 := I1.step ko' ke'
  obtain ⟨Q, hQ⟩ := exists_large hcard I
  have hel := el_le hi
  have e := cancel I ko ko' (hd ▸ h1') I2.x I1.x (Q := Q) fun j h0 hj => hQ j h0 (hj.trans (by rw [← hd]; exact Nat.mul_le_mul_left _ (Nat.pow_le_pow_left hel 2)))
  rw [e] at I2
  refine ⟨_, _, _, I2, ?_, canon_step I1.x ko' (canon_step I.x ko c)⟩
  rw [hs', hs, hN, show L ++ [(el i, s), (el i, !s)] = L ++ [(el i, s)] ++ [(el i, !s)] by simp, colons_snoc, colons_snoc]

def rev (e : ℕ × Bool) : ℕ × Bool := (e.1, !e.2)

theorem rev_rev (e : ℕ × Bool) : rev (rev e) = e := by simp [rev]
theorem rev_ne (e : ℕ × Bool) : rev e ≠ e := by
  intro h
  have := congrArg Prod.snd h
  simp [rev] at this

/-- a list in which every isogeny is cancelled -/
theorem good_zero (hcard : ∀ s, Nat.card (eig π s).ker = 𝕡 + 1) {A0 : K} (h0 : Good π T τ g0 A0 []) : ∀ (n : ℕ) (A' : K) (L Z : List (ℕ × Bool)), Z.length = n →
    (∀ e ∈ L ++ Z, ∃ i < 74, e.1 = el i) → (∀ e, Z.count e = Z.count (rev e)) → Good π T τ g0 A L → Good π T τ g0 A' (L ++ Z) → A = A' := by
  intro n
  induction n using Nat.strong_induction_on with
  | _ n ih =>
    intro A' L Z hn hp hc h h'
    match Z, hn with
    | [], _ =>
      rw [List.append_nil] at h'
      exact h.unique h' (List.Perm.refl _)
    | e :: Z, hn =>
      have h1 := hc e
      rw [List.count_cons_self, List.count_cons_of_ne (rev_ne e).symm] at h1
      have h2 : rev e ∈ Z := List.count_pos_iff.mp (by omega)
      have hpm : (e :: Z).Perm (e :: rev e :: Z.erase (rev e)) := (List.perm_cons_erase h2).cons e
      obtain ⟨i, hi, he⟩ := hp e (by simp)
      have hlen := hpm.length_eq
      have hp' : ∀ x ∈ L ++ Z.erase (rev e), ∃ i < 74, x.1 = el i := by
        intro x hx
        refine hp x ?_
        rcases List.mem_append.mp hx with h3 | h3
        · exact List.mem_append_left _ h3
        · exact List.mem_append_right _ (List.mem_cons_of_mem _ (List.mem_of_mem_erase h3))
      obtain ⟨A1, g1⟩ := good_exists hcard h0 (L ++ Z.erase (rev e)) hp'
      have g2 := good_pair hcard g1 hi e.2
      have e2 : [(el i, e.2), (el i, !e.2)] = [e, rev e] := by rw [← he]; rfl
      rw [e2] at g2
      have e1 : A1 = A' := g2.unique h' (by
        refine List.Perm.trans ?_ (hpm.symm.append_left L)
        rw [List.append_assoc]
        refine List.Perm.append_left L ?_
        exact List.perm_append_comm (l₁ := Z.erase (rev e)) (l₂ := [e, rev e]))
      rw [← e1]
      refine ih (Z.erase (rev e)).length ?_ A1 L _ rfl hp' ?_ h g1
      · simp only [List.length_cons] at hlen hn; omega
      · intro x
        have h3 := hc x
        rw [hpm.count_eq, hpm.count_eq] at h3
        simp only [List.count_cons, beq_iff_eq] at h3
        have f1 : rev e = x ↔ e = rev x := ⟨fun h => by rw [← h, rev_rev], fun h => by rw [h, rev_rev]⟩
        have f2 : rev e = rev x ↔ e = x := ⟨fun h => by rw [← rev_rev e, h, rev_rev], fun h => by rw [h]⟩
        simp only [f1, f2] at h3
        omega

/-- the balance of an isogeny in a list -/
def Balanced (L L' : List (ℕ × Bool)) : Prop := ∀ e, L.count e + L'.count (rev e) = L'.count e + L.count (rev e)

theorem count_map_rev (L : List (ℕ × Bool)) (e : ℕ × Bool) : (L.map rev).count e = L.count (rev e) := by
  have hi : Function.Injective rev := fun a b h => by rw [← rev_rev a, h, rev_rev]
  have := List.count_map_of_injective L rev hi (rev e)
  rwa [rev_rev] at this

theorem good_balanced (hcard : ∀ s, Nat.card (eig π s).ker = 𝕡 + 1) {A0 : K} (h0 : Good π T τ g0 A0 []) {L L' : List (ℕ × Bool)} (hL : ∀ e ∈ L, ∃ i < 74, e.1 = el i)
    (hL' : ∀ e ∈ L', ∃ i < 74, e.1 = el i) (hb : Balanced L L') (h : Good π T τ g0 A L) (h' : Good π T τ g0 A' L') : A = A' := by
  have hf : ∀ e ∈ L.map rev, ∃ i < 74, e.1 = el i := by
    intro e he
    obtain ⟨x, hx, rfl⟩ := List.mem_map.mp he
    exact hL x hx
  have p1 : ∀ e ∈ L ++ (L.map rev ++ L'), ∃ i < 74, e.1 = el i := by
    intro e he
    rcases List.mem_append.mp he with h1 | h1
    · exact hL e h1
    · rcases List.mem_append.mp h1 with h2 | h2
      · exact hf e h2
      · exact hL' e h2
  have hperm : (L' ++ (L ++ L.map rev)).Perm (L ++ (L.map rev ++ L')) := by
    rw [← List.append_assoc L]
    exact List.perm_append_comm
  obtain ⟨A1, g1⟩ := good_exists hcard h0 _ p1
  obtain ⟨A2, g2⟩ := good_exists hcard h0 (L' ++ (L ++ L.map rev)) fun e he => p1 e (hperm.mem_iff.mp he)
  have e12 := g2.unique g1 hperm
  subst e12
  have e1 : A = A2 := by
    refine good_zero hcard h0 _ _ L _ rfl p1 ?_ h g1
    intro e
    have := hb e
    rw [List.count_append, List.count_append, count_map_rev, count_map_rev, rev_rev]
    omega
  have e2 : A' = A2 := by
    refine good_zero hcard h0 _ _ L' _ rfl (fun e he => p1 e (hperm.mem_iff.mp he)) ?_ h' g2
    intro e
    rw [List.count_append, List.count_append, count_map_rev, count_map_rev, rev_rev, Nat.add_comm]
  rw [e1, e2]

omit [IsAlgClosed K] in
/-- the difference of the steps in the two directions -/
theorem total_net (l : List PrivateKey) (i : ℕ) : (total l false i : ℤ) - total l true i = (l.map fun sk => exponent sk.e i).sum := by
  induction l with
  | nil => rfl
  | cons sk l ih =>
    have e : ∀ s, total (sk :: l) s i = target sk.e s i + total l s i := fun s => by simp [total]
    rw [e, e, List.map_cons, List.sum_cons, ← ih]
    simp only [target, if_true, Bool.false_eq_true, if_false]
    push_cast
    omega

theorem orbit_net {l l' : List PrivateKey} {pk pk' : PublicKey} (h : Orbit l pk) (h' : Orbit l' pk')
    (ht : ∀ i < 74, (l.map fun sk => exponent sk.e i).sum = (l'.map fun sk => exponent sk.e i).sum) : pk = pk' := by
  obtain ⟨α, ha, L, hL, H⟩ := h
  obtain ⟨α', ha', L', hL', H'⟩ := h'
  obtain ⟨Γ, _, π, T, τ, g0, hc, hb⟩ := base
  have := good_balanced hc hb hL.mem hL'.mem ?_ (H Γ _ π T τ g0 hc hb) (H' Γ _ π T τ g0 hc hb)
  · have := (algebraMap (ZMod 𝕡) F).injective this
    subst this
    cases pk; cases pk'
    congr 1
    exact elt_unique ha ha'
  · rintro ⟨d, s⟩
    by_cases hd : ∃ i < 74, d = (word primes i).toNat
    · obtain ⟨i, hi, rfl⟩ := hd
      have e1 := total_net l i
      have e2 := total_net l' i
      have e3 := ht i hi
      rw [← e1, ← e2] at e3
      have c1 := hL.count i hi
      have c2 := hL'.count i hi
      simp only [rev, c1, c2]
      cases s
      · simp only [Bool.not_false]; omega
      · simp only [Bool.not_true]; omega
    · have z : ∀ s, L.count (d, s) = 0 ∧ L'.count (d, s) = 0 := fun s =>
        ⟨List.count_eq_zero.mpr fun hm => hd (hL.mem _ hm), List.count_eq_zero.mpr fun hm => hd (hL'.mem _ hm)⟩
      simp only [rev, z]

end Lemmas.CsidhCancel
