import Verif.Lemmas.FrobBase
import Verif.Lemmas.CsidhIso
import Verif.Lemmas.CsidhCof

/-!
The group action of csidh.go walks along the quotients of the starting curve by subgroups that depend on the evaluated
isogenies only, not on their order nor on the points drawn.
-/

namespace Lemmas.CsidhOrbit

open Model Model.Limb Model.Csidh Lemmas.CsidhNat Lemmas.CsidhLadder Lemmas.CsidhIso Lemmas.CsidhCof Lemmas.CsidhField Lemmas.CsidhCurve Lemmas.CsidhAction
  Lemmas.CsidhKeys Verif.XOnly Verif.Colon Spec Spec.Csidh Finset

local notation "𝕡" => Spec.Csidh.p

section Canon
variable {K : Type*} [Field K] {Γ : Type*} [AddCommGroup Γ] {A A' : K} {N N' : AddSubgroup Γ} {T τ κ : Γ} {g g' g0 : Γ → K} {d : ℕ}

/-- `g` is the product of `g0` over the classes of N -/
def Canon (g0 : Γ → K) (N : AddSubgroup Γ) (g : Γ → K) : Prop := ∃ hf : (N : Set Γ).Finite, ∀ P, P ∉ N → g P = ∏ n ∈ hf.toFinset, g0 (P + n)

theorem canon_base (g0 : Γ → K) : Canon g0 ⊥ g0 := by
  refine ⟨Set.finite_singleton 0, fun P _ => ?_⟩
  have : (Set.finite_singleton (0 : Γ)).toFinset = {0} := by ext n; rw [Set.Finite.mem_toFinset, Finset.mem_singleton, Set.mem_singleton_iff]
  show _ = ∏ n ∈ (Set.finite_singleton (0 : Γ)).toFinset, _
  rw [this, prod_singleton, add_zero]

theorem mem_rep (h : KerOdd N κ d) {P : Γ} (hP : P ∈ N ⊔ AddSubgroup.zmultiples κ) : ∃ j < 2 * d + 1, P - j • κ ∈ N := by
  obtain ⟨z, hz⟩ := mem_supz.mp hP
  have hpos : (0 : ℤ) < ((2 * d + 1 : ℕ) : ℤ) := by positivity
  have hl : ((2 * d + 1 : ℕ) : ℤ) • κ ∈ N := by rw [natCast_zsmul]; exact h.mem
  refine ⟨((-z) % ((2 * d + 1 : ℕ) : ℤ)).toNat, ?_, ?_⟩
  · have := Int.emod_lt_of_pos (-z) hpos
    omega
  · have hn := Int.emod_nonneg (-z) hpos.ne'
    rw [← natCast_zsmul, Int.toNat_of_nonneg hn, Int.emod_def, sub_smul, mul_comm, mul_smul, neg_smul]
    have e : P - (-(z • κ) - (-z / ((2 * d + 1 : ℕ) : ℤ)) • ((2 * d + 1 : ℕ) : ℤ) • κ) = P + z • κ + (-z / ((2 * d + 1 : ℕ) : ℤ)) • ((2 * d + 1 : ℕ) : ℤ) • κ := by abel
    rw [e]
    exact N.add_mem hz (N.zsmul_mem hl _)

theorem canon_step (X : XRep A N T g) (h : KerOdd N κ d) (c : Canon g0 N g) : Canon g0 (N ⊔ AddSubgroup.zmultiples κ) (gOdd g κ d) := by
  obtain ⟨hf, hc⟩ := c
  refine ⟨h.finite hf, fun P hP => ?_⟩
  have e : gOdd g κ d P = nrm κ d g P := h.phi_nrm X hP
  rw [e, nrm, prod_congr rfl fun j _ => hc _ (offn hP j), ← prod_product']
  refine prod_bij (fun x _ => x.1 • κ + x.2) ?_ ?_ ?_ ?_
  · rintro ⟨j, n⟩ hx
    rw [mem_product, Set.Finite.mem_toFinset] at hx
    rw [Set.Finite.mem_toFinset]
    exact AddSubgroup.add_mem _ (AddSubgroup.nsmul_mem _ k_mem _) (AddSubgroup.mem_sup_left hx.2)
  · have key : ∀ j j' : ℕ, ∀ n n' : Γ, j < 2 * d + 1 → j' < 2 * d + 1 → n ∈ N → n' ∈ N → j • κ + n = j' • κ + n' → j ≤ j' → j = j' := by
      intro j j' n n' hj hj' hn hn' e hle
      by_contra hne
      refine h.ne (j' - j) (by omega) (by omega) ?_
      have : (j' - j) • κ = n - n' := by
        have : j' • κ = (j' - j) • κ + j • κ := by rw [← add_smul]; congr 1; omega
        rw [this] at e
        have e2 := congrArg (fun z => z - n' - j • κ) e
        have e3 : (j' - j) • κ + j • κ + n' - n' - j • κ = (j' - j) • κ := by abel
        have e4 : j • κ + n - n' - j • κ = n - n' := by abel
        rw [e3, e4] at e2
        exact e2.symm
      rw [this]; exact N.sub_mem hn hn'
    rintro ⟨j, n⟩ hx ⟨j', n'⟩ hx' e
    rw [mem_product, Set.Finite.mem_toFinset, mem_range] at hx hx'
    simp only at e
    have hjj : j = j' := by
      rcases le_total j j' with h1 | h1
      · exact key j j' n n' hx.1 hx'.1 hx.2 hx'.2 e h1
      · exact (key j' j n' n hx'.1 hx.1 hx'.2 hx.2 e.symm h1).symm
    subst hjj
    rw [add_left_cancel e]
  · intro m hm
    rw [Set.Finite.mem_toFinset] at hm
    obtain ⟨j, hj, hn⟩ := mem_rep h hm
    exact ⟨(j, m - j • κ), by rw [mem_product, Set.Finite.mem_toFinset, mem_range]; exact ⟨hj, hn⟩, by simp only; abel⟩
  · rintro ⟨j, n⟩ _
    simp only
    rw [add_assoc]

theorem canon_unique (X : XRep A N T g) (X' : XRep A' N T g') (t : Ker2 N T τ) (c : Canon g0 N g) (c' : Canon g0 N g') : A = A' := by
  obtain ⟨hf, hc⟩ := c
  obtain ⟨hf', hc'⟩ := c'
  have e : g τ = g' τ := by rw [hc τ t.ne, hc' τ t.ne]
  have h1 := t.curve X
  have h2 := t.curve X'
  rw [← e] at h2
  refine mul_right_cancel₀ (t.k_ne X) ?_
  linear_combination h1 - h2

end Canon

variable {K : Type} [Field K] [Algebra (ZMod 𝕡) K] {Γ : Type*} [AddCommGroup Γ] {A A' : K} {N : AddSubgroup Γ} {π : Γ →+ Γ} {T τ κ : Γ} {g g0 y : Γ → K}

/-- the curve with coefficient A is the quotient of the starting curve by the subgroup of these isogenies -/
def Good (π : Γ →+ Γ) (T τ : Γ) (g0 : Γ → K) (A : K) (L : List (ℕ × Bool)) : Prop :=
  ∃ N g y, Iso (frob 𝕡 K) π A N T τ g y ∧ N = colons π ⊥ L ∧ Canon g0 N g

theorem Good.unique {L L' : List (ℕ × Bool)} (h : Good π T τ g0 A L) (h' : Good π T τ g0 A' L') (hp : L.Perm L') : A = A' := by
  obtain ⟨N, g, y, I, rfl, c⟩ := h
  obtain ⟨N', g', y', I', hN', c'⟩ := h'
  rw [← colons_perm hp] at hN'
  subst hN'
  exact canon_unique I.x I'.x I.t c c'

/-- the isogenies of a record -/
def degs (log : List Event) : List (ℕ × Bool) := log.map fun ev => (ev.degree.toNat, ev.sign)

theorem degs_append (l l' : List Event) : degs (l ++ l') = degs l ++ degs l' := List.map_append

/-- The variables of the loop over the primes at prime number i, when the point is the x-coordinate of P -/
structure LS (π : Γ →+ Γ) (T τ : Γ) (g0 : Γ → K) (L : List (ℕ × Bool)) (sg : Bool) (P : Γ) (i : ℕ) (s : ActSt) (A : K) (N : AddSubgroup Γ) (g y : Γ → K) (p : Pt K) (c : Coef K) : Prop where
  iso : Iso (frob 𝕡 K) π A N T τ g y
  col : N = colons π ⊥ (L ++ degs s.log)
  can : Canon g0 N g
  rp : RPt (Up K) s.P p
  pr : PrW N g P p
  rc : RCoef (Up K) s.A c
  isa : IsA c A
  sgn : eig π sg P ∈ N
  ord : todo s.half.e i • P ∈ N
  ki : KI s.half.k s.half.e
  len : s.half.e.length = 74

theorem odd_T (I : XRep A N T g) {n : ℕ} (hn : n % 2 = 1) {P : Γ} (hP : P ∉ N) (h : n • P ∈ N) : g P ≠ 0 := by
  intro h0
  have h1 := I.of_zero hP h0
  have h2 := N.sub_mem h (N.nsmul_mem h1 n)
  rw [nsmul_sub, sub_sub_cancel] at h2
  apply I.TN
  have e : n • T = (n / 2) • (T + T) + T := by
    have : n = n / 2 * 2 + 1 := by omega
    conv_lhs => rw [this]
    rw [add_smul, one_smul, mul_smul, two_smul]
  rw [e] at h2
  have := N.sub_mem h2 (N.nsmul_mem I.T2 (n / 2))
  rwa [add_sub_cancel_left] at this

theorem kerOdd_of_prime {ℓ d : ℕ} (hl : ℓ.Prime) (hd : ℓ = 2 * d + 1) (hκ : κ ∉ N) (h : ℓ • κ ∈ N) : KerOdd N κ d := by
  refine ⟨hd ▸ h, fun j h0 h1 hj => hκ ?_⟩
  have hc : Nat.Coprime j ℓ := Nat.Coprime.symm ((Nat.Prime.coprime_iff_not_dvd hl).mpr fun hdv => by
    have := Nat.le_of_dvd h0 hdv
    omega)
  have e := Nat.gcd_eq_gcd_ab j ℓ
  rw [hc.gcd_eq_one] at e
  have : (1 : ℤ) • κ ∈ N := by
    have e' : (1 : ℤ) = (j.gcdA ℓ) * j + (j.gcdB ℓ) * ℓ := by
      rw [mul_comm, mul_comm (j.gcdB ℓ)]; exact_mod_cast e
    rw [e', add_smul, mul_smul, mul_smul, natCast_zsmul, natCast_zsmul]
    exact N.add_mem (N.zsmul_mem hj _) (N.zsmul_mem h _)
  rwa [one_smul] at this

theorem eig_nsmul (s : Bool) {P : Γ} (h : eig π s P ∈ N) (n : ℕ) : eig π s (n • P) ∈ N := by
  rw [map_nsmul]; exact N.nsmul_mem h n

theorem eig_Eig {s : Bool} (h : eig π s κ ∈ N) : Eig π N κ := by
  cases s
  · exact Or.inl h
  · exact Or.inr h

variable [IsAlgClosed K]

theorem actStep_LS (hcard : ∀ s, Nat.card (eig π s).ker = 𝕡 + 1) {L : List (ℕ × Bool)} {sg : Bool} {P : Γ} {i : ℕ} (hi : i < 74) {st x : Fp} {s : ActSt} {p : Pt K} {c : Coef K}
    (h : LS π T τ g0 L sg P i s A N g y p c) : ∃ A' N' g' y' p' c', LS π T τ g0 L sg P (i + 1) (actStep sg st x (word primes i) i s) A' N' g' y' p' c' := by
  -- the flag is of no importance
  have base : ∀ s' : ActSt, actStep sg st x (word primes i) i s = {s' with half := {s'.half with done := s'.half.done && decide (s'.half.e.getD i 0 = 0)}} →
      (∃ A' N' g' y' p' c', LS π T τ g0 L sg P (i + 1) s' A' N' g' y' p' c') →
      ∃ A' N' g' y' p' c', LS π T τ g0 L sg P (i + 1) (actStep sg st x (word primes i) i s) A' N' g' y' p' c' := by
    rintro s' e ⟨A', N', g', y', p', c', l⟩
    rw [e]
    exact ⟨A', N', g', y', p', c', ⟨l.iso, l.col, l.can, l.rp, l.pr, l.rc, l.isa, l.sgn, l.ord, l.ki, l.len⟩⟩
  by_cases hz : s.half.e.getD i 0 ≠ 0
  · obtain ⟨Q, hQ⟩ : ∃ Q, xMul limbOps s.P s.A (cofactor s.half.e i) = Q := ⟨_, rfl⟩
    obtain ⟨q, hq⟩ : ∃ q, xMul (fieldOps K) p c (cofactor s.half.e i) = q := ⟨_, rfl⟩
    have hQr := xMul_rel up_rel h.rp h.rc (cofactor s.half.e i)
    rw [hQ, hq] at hQr
    obtain ⟨hcl, hcv⟩ := cofactor_val s.half.e hi
    have hqp : PrW N g (todo s.half.e (i + 1) • P) q := by
      by_cases hP : P ∈ N
      · refine ⟨fun _ => ?_, fun hn => absurd (N.nsmul_mem hP _) hn⟩
        rw [← hq]; exact xMul_zero (h.pr.inf hP) c _
      · have := xMul_pr h.iso.x (A_sq h.iso.x h.iso.t) (h.pr.strong hP) hP (odd_T h.iso.x (todo_odd _ _) hP h.ord) h.isa (cofactor s.half.e i) hcl (by rw [hcv]; exact todo_pos _ _)
        rw [hcv, hq] at this
        exact Pr.weak this
    have hz0 : isZero Q.z = true ↔ todo s.half.e (i + 1) • P ∈ N := by
      obtain ⟨v, hv, hv'⟩ := hQr.z
      rw [isZero_elt hv, ← hqp.z, ← hv']
      exact ⟨fun e => by rw [e, map_zero], fun e => inj (K := K) (by rw [e, map_zero])⟩
    have hto : todo s.half.e i = el i * todo s.half.e (i + 1) := by rw [todo_succ _ hi, fac, if_pos hz]
    by_cases hk : isZero Q.z = true
    · refine base s ?_ ⟨A, N, g, y, p, c, ⟨h.iso, h.col, h.can, h.rp, h.pr, h.rc, h.isa, h.sgn, hz0.mp hk, h.ki, h.len⟩⟩
      rw [actStep, if_pos hz, hQ]
      simp only [hk]
      rfl
    · have hk' : isZero Q.z = false := by simpa using hk
      obtain ⟨κ, hκ⟩ : ∃ κ, κ = todo s.half.e (i + 1) • P := ⟨_, rfl⟩
      have hκN : κ ∉ N := fun hm => hk (hz0.mpr (hκ ▸ hm))
      have hlκ : el i • κ ∈ N := by rw [hκ, ← mul_smul, ← hto]; exact h.ord
      have hl := el_prime hi
      obtain ⟨d, hd⟩ : ∃ d, el i = 2 * d + 1 := ⟨el i / 2, by have := el_odd hi; omega⟩
      have hd1 : 1 ≤ d := by have := hl.two_le; omega
      have hko := kerOdd_of_prime hl hd hκN hlκ
      have hes : eig π sg κ ∈ N := hκ ▸ eig_nsmul sg h.sgn _
      have G := h.iso.gen hko
      have I' := h.iso.step hko (eig_Eig hes)
      rw [← hκ] at hqp
      obtain ⟨x1, x2⟩ := xIso_pr h.iso.x h.iso.t hko G hd1 h.pr hqp h.isa (l := word primes i) hd
      obtain ⟨r1, r2⟩ := xIso_rel up_rel h.rp h.rc hQr (word primes i)
      obtain ⟨PA, hPA⟩ : ∃ PA, xIso limbOps s.P s.A Q (word primes i) = PA := ⟨_, rfl⟩
      rw [hPA] at r1 r2
      obtain ⟨e', he'⟩ : ∃ e', s.half.e.set i (s.half.e.getD i 0 - 1) = e' := ⟨_, rfl⟩
      have hki := h.ki.step h.len hi hz
      rw [he'] at hki
      have hle : N ≤ N ⊔ AddSubgroup.zmultiples κ := le_sup_left
      haveI : Finite N := h.iso.fin
      obtain ⟨m, hm0, hm1, hm2⟩ := el_once hi
      have hsup : N ⊔ AddSubgroup.zmultiples κ = colon π N (el i) sg :=
        sup_eq hl hm1 hm0 (by rw [hcard, hm2]) (fun Q hQ => (h.iso.stab Q).mpr hQ) hκN hlκ hes
      refine base ⟨PA.1, PA.2, {s.half with e := e', k := if e'.getD i 0 = 0 then mul512 s.half.k (word primes i) else s.half.k},
        s.log ++ [⟨word primes i, sg, st, x, s.A, Q⟩]⟩ ?_ ⟨_, _, _, _, _, _, ⟨I', ?_, canon_step h.iso.x hko h.can, r1, x1, r2, x2, hle h.sgn, ?_, hki, ?_⟩⟩
      · rw [actStep, if_pos hz, hQ]
        simp only [hk', hPA, he']
        rfl
      · rw [hsup, h.col]
        show _ = colons π ⊥ (L ++ degs (s.log ++ [_]))
        rw [degs_append, ← List.append_assoc, colons, colons, List.foldl_append (l := L ++ degs s.log)]
        rfl
      · show todo e' (i + 1) • P ∈ _
        have : todo e' (i + 1) = todo s.half.e (i + 1) := todo_congr fun j h1 _ => by
          rw [← he', getD_set _ _ _ _ (by have := h.len; omega), if_neg (by omega)]
        rw [this, ← hκ]
        exact k_mem
      · show e'.length = 74
        rw [← he', List.length_set]; exact h.len
  · refine base s ?_ ⟨A, N, g, y, p, c, ⟨h.iso, h.col, h.can, h.rp, h.pr, h.rc, h.isa, h.sgn, ?_, h.ki, h.len⟩⟩
    · rw [actStep, if_neg hz]
    · have := h.ord
      rwa [todo_succ _ hi, fac, if_neg hz, one_mul] at this

theorem actLoop_LS (hcard : ∀ s, Nat.card (eig π s).ker = 𝕡 + 1) {L : List (ℕ × Bool)} {sg : Bool} {P : Γ} {st x : Fp} : ∀ (n i : ℕ), i + n = 74 → ∀ (s : ActSt),
    (∃ A N g y p c, LS π T τ g0 L sg P i s A N g y p c) → ∃ A N g y p c, LS π T τ g0 L sg P 74 (actLoop sg st x (primes.drop i) i s) A N g y p c
  | 0, i, hi, s, h => by
    rw [List.drop_eq_nil_of_le (by rw [primes_len]; omega), actLoop]
    have : i = 74 := by omega
    subst this
    exact h
  | n + 1, i, hi, s, h => by
    have hi' : i < 74 := by omega
    rw [primes_drop hi', actLoop]
    obtain ⟨A, N, g, y, p, c, h⟩ := h
    exact actLoop_LS hcard n (i + 1) (by omega) _ (actStep_LS hcard hi' h)

/-- the sign of the point drawn -/
theorem sign_of (I : Iso (frob 𝕡 K) π A N T τ g y) {a x : ZMod 𝕡} (hA : algebraMap (ZMod 𝕡) K a = A) {P : Γ} (hP : P ∉ N) (hg : g P = algebraMap (ZMod 𝕡) K x) (s : Bool)
    (hs : s = false ↔ x ^ 3 + a * x ^ 2 + x ≠ 0 ∧ IsSquare (x ^ 3 + a * x ^ 2 + x)) : eig π s P ∈ N := by
  have hy : y P ^ 2 = algebraMap (ZMod 𝕡) K (x ^ 3 + a * x ^ 2 + x) := by
    rw [I.ysq P hP, hg, ← hA]
    simp only [map_add, map_mul, map_pow]
    ring
  have hπ : π P ∉ N := fun h => hP ((I.stab P).mp h)
  have hgp : g (π P) = g P := by rw [I.gfrob P hP, hg, frob_alg]
  have hcase := I.x.inj hπ hP hgp
  -- the y-coordinate of the image, by case
  have yp : π P + P ∈ N → frob 𝕡 K (y P) = -y P := by
    intro h
    have hn : -P ∉ N := fun h => hP (by simpa using N.neg_mem h)
    have := I.yshift (-P) (π P + P) hn h
    rw [← I.yfrob P hP, ← I.yneg P hP, ← this]
    congr 1
    abel
  have ym : π P - P ∈ N → frob 𝕡 K (y P) = y P := by
    intro h
    have := I.yshift P (π P - P) hP h
    rw [← I.yfrob P hP, ← this]
    congr 1
    abel
  cases s with
  | false =>
    rw [eig_false]
    obtain ⟨h0, w, hw⟩ := hs.mp rfl
    refine hcase.resolve_left fun h => ?_
    have h1 : (y P - algebraMap (ZMod 𝕡) K w) * (y P + algebraMap (ZMod 𝕡) K w) = 0 := by
      rw [hw, map_mul] at hy
      linear_combination hy
    have h2 : frob 𝕡 K (y P) = y P := by
      rcases mul_eq_zero.mp h1 with h3 | h3
      · rw [sub_eq_zero.mp h3, frob_alg]
      · rw [eq_neg_of_add_eq_zero_left h3, map_neg, frob_alg]
    have h3 := yp h
    rw [h2] at h3
    have h4 : y P = 0 := by
      have : 2 * y P = 0 := by linear_combination h3
      exact (mul_eq_zero.mp this).resolve_left I.x.two
    rw [h4, zero_pow two_ne_zero] at hy
    exact h0 (inj (K := K) (by rw [← hy, map_zero]))
  | true =>
    rw [eig_true]
    by_cases h0 : x ^ 3 + a * x ^ 2 + x = 0
    · have h2 : P + P ∈ N := by
        by_contra hc
        refine (I.x.dbl P hP hc).1 ?_
        rw [h0, map_zero, I.ysq P hP] at hy
        rw [dblDen, hy, mul_zero]
      rcases hcase with h | h
      · exact h
      · have := N.add_mem h h2
        rwa [show π P - P + (P + P) = π P + P by abel] at this
    · refine hcase.resolve_right fun h => ?_
      obtain ⟨w, hw⟩ := frob_fix (ym h)
      have : ¬ (true = false) := by decide
      refine this (hs.mpr ⟨h0, w, inj (K := K) ?_⟩)
      rw [← hy, map_mul, hw]; ring

/-- one round of the outer loop -/
theorem roundHalf_good (hcard : ∀ s, Nat.card (eig π s).ker = 𝕡 + 1) {L : List (ℕ × Bool)} {a x : ZMod 𝕡} {la lx : Fp} (ha : IsElt la a) (hx : IsElt lx x) {h : Half} {log : List Event}
    (hg : Good π T τ g0 (algebraMap (ZMod 𝕡) K a) (L ++ degs log)) (hk : KI h.k h.e) (he : h.e.length = 74) {s : Bool}
    (hs : s = false ↔ x ^ 3 + a * x ^ 2 + x ≠ 0 ∧ IsSquare (x ^ 3 + a * x ^ 2 + x)) :
    KI (roundHalf s la lx h log).half.k (roundHalf s la lx h log).half.e ∧ (roundHalf s la lx h log).half.e.length = 74 ∧
    ∃ a' c' : ZMod 𝕡, IsElt (roundHalf s la lx h log).A.a a' ∧ IsElt (roundHalf s la lx h log).A.c c' ∧
      Good π T τ g0 (algebraMap (ZMod 𝕡) K (a' * c'⁻¹)) (L ++ degs (roundHalf s la lx h log).log) := by
  obtain ⟨N, g, y, I, hN, can⟩ := hg
  obtain ⟨P, hP, hPx⟩ := I.surj (algebraMap (ZMod 𝕡) K x)
  have hsg := sign_of I rfl hP hPx s hs
  haveI : Finite N := I.fin
  have hord : (𝕡 + 1) • P ∈ N := smul_mem (Nat.succ_ne_zero _) (hcard s) (fun Q hQ => (I.stab Q).mpr hQ) hsg
  have ha' : RCoef (Up K) (⟨la, one⟩ : Coef Fp) ⟨algebraMap (ZMod 𝕡) K a, 1⟩ := ⟨⟨a, ha, rfl⟩, ⟨1, one_elt, map_one _⟩⟩
  have hx' : RPt (Up K) (⟨lx, one⟩ : Pt Fp) ⟨algebraMap (ZMod 𝕡) K x, 1⟩ := ⟨⟨x, hx, rfl⟩, ⟨1, one_elt, map_one _⟩⟩
  have hIA : IsA (⟨algebraMap (ZMod 𝕡) K a, 1⟩ : Coef K) (algebraMap (ZMod 𝕡) K a) := ⟨one_ne_zero, (mul_one _).symm⟩
  have hmul := xMul_rel up_rel hx' ha' h.k
  have hpr : PrW N g (val h.k • P) (xMul (fieldOps K) ⟨algebraMap (ZMod 𝕡) K x, 1⟩ ⟨algebraMap (ZMod 𝕡) K a, 1⟩ h.k) := by
    by_cases h0 : g P = 0
    · have hxz : algebraMap (ZMod 𝕡) K x = 0 := by rw [← hPx, h0]
      obtain ⟨m, hm⟩ := hk.even
      have hpos := hk.pos
      have h2 : P + P ∈ N := by
        have h1 := I.x.of_zero hP h0
        have := N.add_mem (N.add_mem h1 h1) I.x.T2
        rwa [show P - T + (P - T) + (T + T) = P + P by abel] at this
      refine ⟨fun _ => xMul_T hxz _ h.k hk.len (by omega), fun hn => absurd ?_ hn⟩
      rw [hm, mul_comm, mul_smul, two_smul]
      exact N.nsmul_mem h2 m
    · refine Pr.weak (xMul_pr I.x (A_sq I.x I.t) ⟨fun h => absurd h hP, fun _ => ⟨one_ne_zero, ?_⟩⟩ hP h0 hIA h.k hk.len hk.pos)
      show algebraMap (ZMod 𝕡) K x = g P * 1
      rw [hPx, mul_one]
  have hstart : LS π T τ g0 L s (val h.k • P) 0 ⟨xMul limbOps ⟨lx, one⟩ ⟨la, one⟩ h.k, ⟨la, one⟩, {h with done := true}, log⟩ (algebraMap (ZMod 𝕡) K a) N g y
      (xMul (fieldOps K) ⟨algebraMap (ZMod 𝕡) K x, 1⟩ ⟨algebraMap (ZMod 𝕡) K a, 1⟩ h.k) ⟨algebraMap (ZMod 𝕡) K a, 1⟩ := by
    refine ⟨I, hN, can, hmul, hpr, ha', hIA, eig_nsmul s hsg _, ?_, hk, he⟩
    show todo h.e 0 • val h.k • P ∈ N
    rw [← mul_smul, mul_comm, hk.val]
    exact hord
  have hl := actLoop_LS hcard (st := la) (x := lx) 74 0 rfl _ ⟨_, _, _, _, _, _, hstart⟩
  rw [List.drop_zero] at hl
  have er : roundHalf s la lx h log = actLoop s la lx primes 0 ⟨xMul limbOps ⟨lx, one⟩ ⟨la, one⟩ h.k, ⟨la, one⟩, {h with done := true}, log⟩ := rfl
  rw [← er] at hl
  obtain ⟨A', N', g', y', p', c', l⟩ := hl
  obtain ⟨⟨av, h1, h2⟩, ⟨cv, h3, h4⟩⟩ := l.rc
  refine ⟨l.ki, l.len, av, cv, h1, h3, N', g', y', ?_, l.col, l.can⟩
  have hc := l.isa.c
  have e : algebraMap (ZMod 𝕡) K (av * cv⁻¹) = A' := by
    rw [map_mul, map_inv₀, h2, h4, l.isa.a]
    field_simp
  rw [e]
  exact l.iso

/-- the variables of the outer loop -/
structure RS (π : Γ →+ Γ) (T τ : Γ) (g0 : Γ → K) (L : List (ℕ × Bool)) (s : RoundSt) : Prop where
  good : ∃ a, IsElt s.A a ∧ Good π T τ g0 (algebraMap (ZMod 𝕡) K a) (L ++ degs s.log)
  k0 : KI s.h0.k s.h0.e
  k1 : KI s.h1.k s.h1.e
  l0 : s.h0.e.length = 74
  l1 : s.h1.e.length = 74

theorem actRound_good (hcard : ∀ s, Nat.card (eig π s).ker = 𝕡 + 1) {L : List (ℕ × Bool)} {s s' : RoundSt} {x : Fp} (h : RS π T τ g0 L s) (hx : ∃ v, IsElt x v)
    (hr : actRound s x = some s') : RS π T τ g0 L s' := by
  obtain ⟨a, ha, hg⟩ := h.good
  obtain ⟨v, hv⟩ := hx
  rw [actRound] at hr
  obtain ⟨sg, hsg⟩ : ∃ sg, decide (isNonQuadRes (montEval limbOps s.A x) ≠ 0) = sg := ⟨_, rfl⟩
  obtain ⟨hf, hhf⟩ : ∃ hf, (if sg then s.h1 else s.h0) = hf := ⟨_, rfl⟩
  simp only [hsg, hhf] at hr
  have hs : sg = false ↔ v ^ 3 + a * v ^ 2 + v ≠ 0 ∧ IsSquare (v ^ 3 + a * v ^ 2 + v) := by
    have hm : IsElt (montEval limbOps s.A x) _ := montEval_rel limb_rel ha hv
    have he : montEval (fieldOps (ZMod Spec.Csidh.p)) a v = v ^ 3 + a * v ^ 2 + v := by
      show (v * v + a * v + 1) * v = _
      ring
    rw [he] at hm
    rw [← hsg, isNonQuadRes_elt hm]
    split <;> simp_all
  have hkf : KI hf.k hf.e ∧ hf.e.length = 74 := by
    rw [← hhf]; split
    · exact ⟨h.k1, h.l1⟩
    · exact ⟨h.k0, h.l0⟩
  split at hr
  · cases hr
  · obtain ⟨r, hrr⟩ : ∃ r, roundHalf sg s.A x hf s.log = r := ⟨_, rfl⟩
    obtain ⟨k1, k2, a', c', k3, k4, k5⟩ := roundHalf_good hcard ha hv hg hkf.1 hkf.2 hs
    rw [hrr] at hr k1 k2 k3 k4 k5
    have hr := Option.some.inj hr
    subst hr
    have hi := inv_elt k4
    obtain ⟨c, hcc⟩ : ∃ c, modExpRdc512 r.A.c pMin1 = c := ⟨_, rfl⟩
    simp only [hcc] at hi ⊢
    refine ⟨⟨a' * c'⁻¹, mul_elt k3 hi, k5⟩, ?_, ?_, ?_, ?_⟩
    · show KI (if sg = true then s.h0 else r.half).k (if sg = true then s.h0 else r.half).e
      split
      · exact h.k0
      · exact k1
    · show KI (if sg = true then r.half else s.h1).k (if sg = true then r.half else s.h1).e
      split
      · exact k1
      · exact h.k1
    · show (if sg = true then s.h0 else r.half).e.length = 74
      split
      · exact h.l0
      · exact k2
    · show (if sg = true then r.half else s.h1).e.length = 74
      split
      · exact k2
      · exact h.l1

/-- the group action -/
theorem groupAction_good (hcard : ∀ s, Nat.card (eig π s).ker = 𝕡 + 1) {L : List (ℕ × Bool)} {la : Fp} {a : ZMod 𝕡} (ha : IsElt la a) (hg : Good π T τ g0 (algebraMap (ZMod 𝕡) K a) L)
    {prv : PrivateKey} {rng rest : List Byte} {s : RoundSt} (h : groupActionLog la prv rng = some (s, rest)) :
    ∃ a', IsElt s.A a' ∧ Good π T τ g0 (algebraMap (ZMod 𝕡) K a') (L ++ degs s.log) := by
  rw [groupActionLog] at h
  refine (actRounds_inv actRound (RS π T τ g0 L) (fun s x s' h1 h2 h3 => actRound_good hcard h1 h2 h3) _ rng s rest ?_ h).1.good
  exact ⟨⟨a, ha, by rw [degs, List.map_nil, List.append_nil]; exact hg⟩, start_cof _ _, start_cof _ _, splitKey_len _ _, splitKey_len _ _⟩

end Lemmas.CsidhOrbit
