import Verif.Lemmas.CsidhOrbit
import Mathlib.GroupTheory.Exponent
import Mathlib.SetTheory.Cardinal.Finite
import Mathlib.Combinatorics.Enumerative.DoubleCounting

/-!
How many numbers of the prime field are x-coordinates of points on which Frobenius is a given sign and which have a
given prime in their order, on every curve of the orbit.
-/

namespace Lemmas.CsidhCount

open Model Model.Limb Model.Csidh Lemmas.CsidhNat Lemmas.CsidhLadder Lemmas.CsidhIso Lemmas.CsidhCof Lemmas.CsidhField Lemmas.CsidhCurve Lemmas.CsidhAction
  Lemmas.CsidhKeys Lemmas.CsidhOrbit Verif.XOnly Verif.Colon Spec Spec.Csidh Finset

local notation "𝕡" => Spec.Csidh.p

variable {K : Type} [Field K] [Algebra (ZMod 𝕡) K] {Γ : Type*} [AddCommGroup Γ] {A : K} {N : AddSubgroup Γ} {π : Γ →+ Γ} {T τ : Γ} {g y : Γ → K}

/-- the sign that the code computes for the number x -/
def Sg (a x : ZMod 𝕡) (s : Bool) : Prop := s = false ↔ x ^ 3 + a * x ^ 2 + x ≠ 0 ∧ IsSquare (x ^ 3 + a * x ^ 2 + x)

theorem exists_sg (a x : ZMod 𝕡) : ∃ s, Sg a x s := by
  by_cases h : x ^ 3 + a * x ^ 2 + x ≠ 0 ∧ IsSquare (x ^ 3 + a * x ^ 2 + x)
  · exact ⟨false, ⟨fun _ => h, fun _ => rfl⟩⟩
  · exact ⟨true, ⟨fun h' => absurd h' (by decide), fun h' => absurd h' h⟩⟩

theorem eig_neg {s : Bool} {P : Γ} (h : eig π s P ∈ N) : eig π s (-P) ∈ N := by rw [map_neg]; exact N.neg_mem h

theorem eig_both {s : Bool} {P : Γ} (h : eig π s P ∈ N) (h2 : P + P ∈ N) (t : Bool) : eig π t P ∈ N := by
  cases s <;> cases t
  · exact h
  · rw [eig_true]; rw [eig_false] at h
    have := N.add_mem h h2
    rwa [show π P - P + (P + P) = π P + P by abel] at this
  · rw [eig_false]; rw [eig_true] at h
    have := N.sub_mem h h2
    rwa [show π P + P - (P + P) = π P - P by abel] at this
  · exact h

theorem card_ge [IsAlgClosed K] (I : Iso (frob 𝕡 K) π A N T τ g y) {a : ZMod 𝕡} (hA : algebraMap (ZMod 𝕡) K a = A)
    (hfin : ∀ s, Finite (H π s N)) : 2 * (𝕡 + 1) * Nat.card N ≤ Nat.card (H π true N) + Nat.card (H π false N) := by
  classical
  haveI : Finite N := I.fin
  haveI := hfin
  choose P hP hg using fun x : ZMod 𝕡 => I.surj (algebraMap (ZMod 𝕡) K x)
  choose sg hsg using fun x : ZMod 𝕡 => exists_sg a x
  have hs : ∀ x, eig π (sg x) (P x) ∈ N := fun x => sign_of I hA (hP x) (hg x) _ (hsg x)
  have hleH : ∀ s, N ≤ H π s N := le_H fun Q hQ => (I.stab Q).mpr hQ
  let f : Option (ZMod 𝕡) × Bool × N → Bool × Γ := fun z => match z with
    | (none, b, n) => (b, n)
    | (some x, b, n) => if P x + P x ∈ N then (b, P x + n) else (sg x, (if b then -P x else P x) + n)
  have hmem : ∀ z, (f z).2 ∈ H π (f z).1 N := by
    rintro ⟨_ | x, b, n⟩
    · exact hleH b n.2
    · show (if P x + P x ∈ N then (b, P x + n) else (sg x, (if b then -P x else P x) + n)).2 ∈ H π (if P x + P x ∈ N then (b, P x + n) else (sg x, (if b then -P x else P x) + n)).1 N
      split
      · rename_i h2
        exact (H π b N).add_mem (eig_both (hs x) h2 b) (hleH _ n.2)
      · refine (H π (sg x) N).add_mem ?_ (hleH _ n.2)
        cases b
        · exact hs x
        · exact eig_neg (hs x)
  -- what the image says about x
  have hsome : ∀ x b (n : N), (f (some x, b, n)).2 ∉ N ∧ g (f (some x, b, n)).2 = algebraMap (ZMod 𝕡) K x := by
    intro x b n
    have hneg : -P x ∉ N := fun h => hP x (by simpa using N.neg_mem h)
    have key : ∀ Q, Q ∉ N → g Q = algebraMap (ZMod 𝕡) K x → Q + n ∉ N ∧ g (Q + n) = algebraMap (ZMod 𝕡) K x := by
      intro Q hQ hgQ
      refine ⟨fun h => hQ ?_, ?_⟩
      · have := N.sub_mem h n.2
        rwa [add_sub_cancel_right] at this
      · rw [← hgQ]
        exact I.x.eq_of_sub hQ (by rw [add_sub_cancel_left]; exact n.2)
    show (if P x + P x ∈ N then (b, P x + n) else (sg x, (if b then -P x else P x) + n)).2 ∉ N ∧ g (if P x + P x ∈ N then (b, P x + n) else (sg x, (if b then -P x else P x) + n)).2 = _
    split
    · exact key _ (hP x) (hg x)
    · cases b
      · exact key _ (hP x) (hg x)
      · refine key _ hneg ?_
        rw [← hg x]
        exact I.x.eq_of_add (hP x) (by rw [if_pos rfl, neg_add_cancel]; exact N.zero_mem)
  have finj : Function.Injective f := by
    rintro ⟨_ | x, b, n⟩ ⟨_ | x', b', n'⟩ e
    · have e1 : b = b' := congrArg Prod.fst e
      have e2 : (n : Γ) = n' := congrArg Prod.snd e
      rw [e1, Subtype.ext e2]
    · exact absurd n.2 (by have := (hsome x' b' n').1; rw [← e] at this; exact this)
    · exact absurd n'.2 (by have := (hsome x b n).1; rw [e] at this; exact this)
    · have hx : x = x' := by
        apply (algebraMap (ZMod 𝕡) K).injective
        rw [← (hsome x b n).2, ← (hsome x' b' n').2, e]
      subst hx
      have e : (if P x + P x ∈ N then (b, P x + n) else (sg x, (if b then -P x else P x) + n)) = (if P x + P x ∈ N then (b', P x + n') else (sg x, (if b' then -P x else P x) + n')) := e
      by_cases h2 : P x + P x ∈ N
      · rw [if_pos h2, if_pos h2, Prod.mk.injEq] at e
        rw [e.1, Subtype.ext (add_left_cancel e.2)]
      · rw [if_neg h2, if_neg h2, Prod.mk.injEq] at e
        have e := e.2
        have key : ∀ m m' : N, P x + (m : Γ) = -P x + m' → False := by
          intro m m' e
          apply h2
          have : P x + P x = m' - m := by
            have := congrArg (fun z => z + P x - (m : Γ)) e
            rw [show P x + (m : Γ) + P x - m = P x + P x by abel, show -P x + (m' : Γ) + P x - m = m' - m by abel] at this
            exact this
          rw [this]
          exact N.sub_mem m'.2 m.2
        cases b <;> cases b'
        · rw [Subtype.ext (add_left_cancel e)]
        · exact absurd e (key _ _)
        · exact absurd e.symm (key _ _)
        · rw [Subtype.ext (add_left_cancel e)]
  have := Nat.card_le_card_of_injective (fun z => (⟨(f z).1, ⟨(f z).2, hmem z⟩⟩ : Σ s, H π s N)) (by
    intro z z' e
    apply finj
    rw [Sigma.mk.injEq] at e
    obtain ⟨e1, e2⟩ := e
    refine Prod.ext e1 ?_
    have gen : ∀ (s s' : Bool) (u : H π s N) (u' : H π s' N), s = s' → HEq u u' → (u : Γ) = u' := by
      rintro s _ u u' rfl h
      rw [eq_of_heq h]
    exact gen _ _ _ _ e1 e2)
  rw [Nat.card_prod, Nat.card_prod, Nat.card_sigma, Fintype.sum_bool, Finite.card_option, Nat.card_zmod, Nat.card_eq_fintype_card (α := Bool), Fintype.card_bool] at this
  calc _ = (𝕡 + 1) * (2 * Nat.card N) := by ring
    _ ≤ _ := this

/-- p + 1 points, modulo N, on which Frobenius is a given sign -/
theorem card_H [IsAlgClosed K] (hcard : ∀ s, Nat.card (eig π s).ker = 𝕡 + 1) (I : Iso (frob 𝕡 K) π A N T τ g y) {a : ZMod 𝕡} (hA : algebraMap (ZMod 𝕡) K a = A) (s : Bool) :
    Nat.card (H π s N) = (𝕡 + 1) * Nat.card N ∧ Finite (H π s N) := by
  haveI : Finite N := I.fin
  have hN0 : 0 < Nat.card N := Nat.card_pos
  have h1 : ∀ s, Nat.card (H π s N) ≤ (𝕡 + 1) * Nat.card N ∧ Finite (H π s N) := by
    intro s
    obtain ⟨t, ht, hc⟩ := card_comap (eig π s) (hcard s) (N := N)
    have ht0 : 0 < t := Nat.pos_of_dvd_of_pos ht hN0
    have hc : Nat.card (H π s N) = (𝕡 + 1) * t := hc
    refine ⟨by rw [hc]; exact Nat.mul_le_mul_left _ (Nat.le_of_dvd hN0 ht), Nat.finite_of_card_ne_zero ?_⟩
    rw [hc]
    exact mul_ne_zero (Nat.succ_ne_zero _) ht0.ne'
  have h2 := card_ge I hA fun s => (h1 s).2
  refine ⟨?_, (h1 s).2⟩
  have e : 2 * (𝕡 + 1) * Nat.card N = (𝕡 + 1) * Nat.card N + (𝕡 + 1) * Nat.card N := by ring
  rw [e] at h2
  have ht := (h1 true).1
  have hf := (h1 false).1
  generalize (𝕡 + 1) * Nat.card N = M at h2 ht hf ⊢
  cases s <;> omega

/-- a point whose order has all the primes -/
theorem exists_full [IsAlgClosed K] (hcard : ∀ s, Nat.card (eig π s).ker = 𝕡 + 1) (I : Iso (frob 𝕡 K) π A N T τ g y) {a : ZMod 𝕡} (hA : algebraMap (ZMod 𝕡) K a = A) (s : Bool) {i : ℕ} (hi : i < 74) :
    ∃ P, eig π s P ∈ N ∧ el i • P ∈ N ∧ P ∉ N := by
  haveI : Finite N := I.fin
  obtain ⟨h1, h2⟩ := card_H hcard I hA s
  have hle : N ≤ H π s N := le_H (fun Q hQ => (I.stab Q).mpr hQ) s
  have hN0 : 0 < Nat.card N := Nat.card_pos
  have hr : N.relIndex (H π s N) = 𝕡 + 1 := by
    have := AddSubgroup.relIndex_mul_relIndex ⊥ N (H π s N) bot_le hle
    rw [AddSubgroup.relIndex_bot_left, AddSubgroup.relIndex_bot_left, h1, mul_comm] at this
    exact Nat.eq_of_mul_eq_mul_right hN0 this
  haveI : Finite (H π s N ⧸ N.addSubgroupOf (H π s N)) := by
    apply Nat.finite_of_card_ne_zero
    intro h
    have : N.relIndex (H π s N) = 0 := h
    rw [hr] at this
    exact Nat.succ_ne_zero _ this
  haveI := Fact.mk (el_prime hi)
  obtain ⟨m, -, -, hm⟩ := el_once hi
  obtain ⟨x, hx⟩ := exists_prime_addOrderOf_dvd_card' (G := H π s N ⧸ N.addSubgroupOf (H π s N)) (el i) (by
    show el i ∣ N.relIndex (H π s N)
    rw [hr, hm]; exact Dvd.intro _ rfl)
  induction x using QuotientAddGroup.induction_on with
  | H z =>
    refine ⟨z.1, z.2, ?_, ?_⟩
    · have := addOrderOf_nsmul_eq_zero (QuotientAddGroup.mk z : H π s N ⧸ N.addSubgroupOf (H π s N))
      rw [hx, ← QuotientAddGroup.mk_nsmul, QuotientAddGroup.eq_zero_iff] at this
      exact this
    · intro hz
      have : (QuotientAddGroup.mk z : H π s N ⧸ N.addSubgroupOf (H π s N)) = 0 := by
        rw [QuotientAddGroup.eq_zero_iff]; exact hz
      rw [this, addOrderOf_zero] at hx
      exact (el_prime hi).one_lt.ne hx

/-- the points killed by c -/
def Kill (π : Γ →+ Γ) (s : Bool) (N : AddSubgroup Γ) (c : ℕ) : AddSubgroup Γ := H π s N ⊓ N.comap (nsmulAddMonoidHom c)

theorem mem_Kill {s : Bool} {c : ℕ} {P : Γ} : P ∈ Kill π s N c ↔ eig π s P ∈ N ∧ c • P ∈ N := Iff.rfl

/-- at most one in `el i` of the points is killed by (p + 1) / el i -/
theorem kill_le [IsAlgClosed K] (hcard : ∀ s, Nat.card (eig π s).ker = 𝕡 + 1) (I : Iso (frob 𝕡 K) π A N T τ g y) {a : ZMod 𝕡} (hA : algebraMap (ZMod 𝕡) K a = A) (s : Bool)
    {i : ℕ} (hi : i < 74) {c : ℕ} (hc : 𝕡 + 1 = el i * c) : el i * Nat.card (Kill π s N c) ≤ (𝕡 + 1) * Nat.card N := by
  haveI : Finite N := I.fin
  obtain ⟨h1, h2⟩ := card_H hcard I hA s
  have hle : Kill π s N c ≤ H π s N := inf_le_left
  haveI : Finite (Kill π s N c) := Set.Finite.subset (s := (H π s N : Set Γ)) h2 hle
  obtain ⟨P, hP1, hP2, hP3⟩ := exists_full hcard I hA s hi
  obtain ⟨m, hm0, hm1, hm2⟩ := el_once hi
  have hmc : m = c := Nat.eq_of_mul_eq_mul_left (el_prime hi).pos (hm2.symm.trans hc)
  subst hmc
  -- the class of P has order el i
  have hPk : P ∉ Kill π s N m := by
    intro h
    have hk := (mem_Kill.mp h).2
    have hco : Nat.Coprime m (el i) := ((Nat.Prime.coprime_iff_not_dvd (el_prime hi)).mpr hm1).symm
    apply hP3
    have e := Nat.gcd_eq_gcd_ab m (el i)
    rw [hco.gcd_eq_one] at e
    have : (1 : ℤ) • P ∈ N := by
      have e' : (1 : ℤ) = (m.gcdA (el i)) * m + (m.gcdB (el i)) * (el i) := by
        rw [mul_comm, mul_comm (m.gcdB (el i))]; exact_mod_cast e
      rw [e', add_smul, mul_smul, mul_smul, natCast_zsmul, natCast_zsmul]
      exact N.add_mem (N.zsmul_mem hk _) (N.zsmul_mem hP2 _)
    rwa [one_smul] at this
  have hidx : el i ∣ (Kill π s N m).relIndex (H π s N) := by
    let q : H π s N ⧸ (Kill π s N m).addSubgroupOf (H π s N) := QuotientAddGroup.mk ⟨P, hP1⟩
    have hq : addOrderOf q = el i := by
      haveI := Fact.mk (el_prime hi)
      refine addOrderOf_eq_prime ?_ ?_
      · rw [← QuotientAddGroup.mk_nsmul, QuotientAddGroup.eq_zero_iff]
        show el i • P ∈ Kill π s N m
        exact mem_Kill.mpr ⟨eig_nsmul s hP1 _, N.nsmul_mem hP2 m⟩
      · intro h
        rw [QuotientAddGroup.eq_zero_iff] at h
        exact hPk h
    rw [← hq]
    exact addOrderOf_dvd_natCard q
  have hmul := AddSubgroup.relIndex_mul_relIndex ⊥ (Kill π s N m) (H π s N) bot_le hle
  rw [AddSubgroup.relIndex_bot_left, AddSubgroup.relIndex_bot_left, h1] at hmul
  have hpos : 0 < (Kill π s N m).relIndex (H π s N) := by
    rcases Nat.eq_zero_or_pos ((Kill π s N m).relIndex (H π s N)) with h | h
    · rw [h, mul_zero] at hmul
      exact absurd hmul.symm (mul_ne_zero (Nat.succ_ne_zero _) Nat.card_pos.ne')
    · exact h
  rw [← hmul, mul_comm]
  exact Nat.mul_le_mul_left _ (Nat.le_of_dvd hpos hidx)

/-- the numbers that are x-coordinates of points of a set: at least half as many -/
theorem coords [IsAlgClosed K] (I : Iso (frob 𝕡 K) π A N T τ g y) {s : Bool} (S : Finset Γ) (hS : ∀ P ∈ S, eig π s P ∈ N ∧ P ∉ N) :
    ∃ X : Finset (ZMod 𝕡), S.card ≤ 2 * Nat.card N * X.card ∧ ∀ x ∈ X, ∃ P ∈ S, g P = algebraMap (ZMod 𝕡) K x := by
  classical
  haveI : Finite N := I.fin
  have hx : ∀ P ∈ S, ∃ v, algebraMap (ZMod 𝕡) K v = g P := fun P hP => frob_fix (I.fix (hS P hP).2 (eig_Eig (hS P hP).1))
  choose! X hX using hx
  refine ⟨S.image X, card_le_mul_card_image S _ ?_, ?_⟩
  · intro x hx
    obtain ⟨Q, hQ, rfl⟩ := mem_image.mp hx
    have hsub : (({P ∈ S | X P = X Q} : Finset Γ)) ⊆ (I.fin.toFinset.image fun n => n - Q) ∪ (I.fin.toFinset.image fun n => n + Q) := by
      intro P hP
      obtain ⟨hP1, hP2⟩ := mem_filter.mp hP
      have e : g P = g Q := by rw [← hX P hP1, ← hX Q hQ, hP2]
      rw [mem_union, mem_image, mem_image]
      rcases I.x.inj (hS P hP1).2 (hS Q hQ).2 e with h | h
      · exact Or.inl ⟨P + Q, by rw [Set.Finite.mem_toFinset]; exact h, by abel⟩
      · exact Or.inr ⟨P - Q, by rw [Set.Finite.mem_toFinset]; exact h, by abel⟩
    have hc : I.fin.toFinset.card = Nat.card N := by
      rw [← Set.ncard_eq_toFinset_card _ I.fin]; rfl
    calc _ ≤ _ := card_le_card hsub
      _ ≤ _ := card_union_le _ _
      _ ≤ Nat.card N + Nat.card N := by
        rw [← hc]
        exact Nat.add_le_add card_image_le card_image_le
      _ = _ := by ring
  · intro x hx
    obtain ⟨P, hP, rfl⟩ := mem_image.mp hx
    exact ⟨P, hP, (hX P hP).symm⟩

/-- the sign computed is the one of Frobenius unless the point has order 2 -/
theorem sg_of [IsAlgClosed K] (I : Iso (frob 𝕡 K) π A N T τ g y) {a x : ZMod 𝕡} (hA : algebraMap (ZMod 𝕡) K a = A) {P : Γ} (hP : P ∉ N) (hg : g P = algebraMap (ZMod 𝕡) K x) {s t : Bool}
    (hs : eig π s P ∈ N) (h2 : P + P ∉ N) (ht : Sg a x t) : t = s := by
  have h := sign_of I hA hP hg t ht
  by_contra hne
  apply h2
  have key : ∀ {u v : Γ}, u + v ∈ N → u - v ∈ N → v + v ∈ N := by
    intro u v h1 h2
    have := N.sub_mem h1 h2
    rwa [show u + v - (u - v) = v + v by abel] at this
  cases s <;> cases t
  · exact absurd rfl hne
  · exact key h hs
  · exact key hs h
  · exact absurd rfl hne

/-- many numbers are x-coordinates of points of sign s outside the subgroups killed by (p + 1) / el i, for the i of a list -/
theorem many [IsAlgClosed K] (hcard : ∀ s, Nat.card (eig π s).ker = 𝕡 + 1) (I : Iso (frob 𝕡 K) π A N T τ g y) {a : ZMod 𝕡} (hA : algebraMap (ZMod 𝕡) K a = A) (s : Bool)
    (J : Finset ℕ) (hJ : ∀ i ∈ J, i < 74) (hne : J.Nonempty) : ∃ X : Finset (ZMod 𝕡), 𝕡 + 1 ≤ 2 * X.card + ∑ i ∈ J, (𝕡 + 1) / el i ∧
      ∀ x ∈ X, ∃ P, P ∉ N ∧ g P = algebraMap (ZMod 𝕡) K x ∧ eig π s P ∈ N ∧ ∀ i ∈ J, ∀ c, ¬ el i ∣ c → c • P ∉ N := by
  classical
  haveI : Finite N := I.fin
  obtain ⟨h1, h2⟩ := card_H hcard I hA s
  haveI := Fintype.ofFinite (H π s N)
  have hNp : 0 < Nat.card N := Nat.card_pos
  let U : Finset Γ := (Set.toFinite (H π s N : Set Γ)).toFinset
  have hUc : U.card = (𝕡 + 1) * Nat.card N := by
    rw [← h1, ← Set.ncard_eq_toFinset_card _ (Set.toFinite _)]; rfl
  have hfinK : ∀ c, (Kill π s N c : Set Γ).Finite := fun c => Set.Finite.subset (s := (H π s N : Set Γ)) h2 inf_le_left
  let B : Finset Γ := J.biUnion fun i => (hfinK ((𝕡 + 1) / el i)).toFinset
  have hBc : B.card ≤ ∑ i ∈ J, (𝕡 + 1) / el i * Nat.card N := by
    refine card_biUnion_le.trans (sum_le_sum fun i hi => ?_)
    obtain ⟨m, hm0, hm1, hm2⟩ := el_once (hJ i hi)
    have hp := (el_prime (hJ i hi)).pos
    have e : (𝕡 + 1) / el i = m := by rw [hm2, Nat.mul_div_cancel_left _ hp]
    have hk := kill_le hcard I hA s (hJ i hi) hm2
    rw [e, ← Set.ncard_eq_toFinset_card _ (hfinK m)]
    rw [hm2, mul_assoc] at hk
    exact Nat.le_of_mul_le_mul_left hk hp
  have hS : ∀ P ∈ U \ B, P ∉ N ∧ eig π s P ∈ N ∧ ∀ i ∈ J, ∀ c, ¬ el i ∣ c → c • P ∉ N := by
    intro P hP
    obtain ⟨hP1, hP2⟩ := mem_sdiff.mp hP
    have hP1 : P ∈ H π s N := (Set.Finite.mem_toFinset _).mp hP1
    have hP1 : eig π s P ∈ N := hP1
    have hord : (𝕡 + 1) • P ∈ N := smul_mem (Nat.succ_ne_zero _) (hcard s) (fun Q hQ => (I.stab Q).mpr hQ) hP1
    have key : ∀ i ∈ J, ∀ c, ¬ el i ∣ c → c • P ∉ N := by
      intro i hi c hc h
      apply hP2
      rw [mem_biUnion]
      refine ⟨i, hi, (Set.Finite.mem_toFinset _).mpr (mem_Kill.mpr ⟨hP1, ?_⟩)⟩
      obtain ⟨m, hm0, hm1, hm2⟩ := el_once (hJ i hi)
      have hp := (el_prime (hJ i hi)).pos
      have e : (𝕡 + 1) / el i = m := by rw [hm2, Nat.mul_div_cancel_left _ hp]
      rw [e]
      -- el i is prime to c
      have hco : Nat.Coprime c (el i) := ((Nat.Prime.coprime_iff_not_dvd (el_prime (hJ i hi))).mpr hc).symm
      have e := Nat.gcd_eq_gcd_ab c (el i)
      rw [hco.gcd_eq_one] at e
      have h3 : (1 : ℤ) • (m • P) ∈ N := by
        have e' : (1 : ℤ) = (c.gcdA (el i)) * c + (c.gcdB (el i)) * (el i) := by
          rw [mul_comm, mul_comm (c.gcdB (el i))]; exact_mod_cast e
        rw [e', add_smul, mul_smul, mul_smul, natCast_zsmul, natCast_zsmul, smul_comm c m, ← mul_smul (el i) m, ← hm2]
        exact N.add_mem (N.zsmul_mem (N.nsmul_mem h _) _) (N.zsmul_mem hord _)
      rwa [one_smul] at h3
    refine ⟨fun h => ?_, hP1, key⟩
    obtain ⟨i, hi⟩ := hne
    refine key i hi 1 (fun hd => ?_) (by rw [one_smul]; exact h)
    have := Nat.le_of_dvd Nat.one_pos hd
    have := (el_prime (hJ i hi)).one_lt
    omega
  obtain ⟨X, hX1, hX2⟩ := coords I (U \ B) fun P hP => ⟨(hS P hP).2.1, (hS P hP).1⟩
  refine ⟨X, ?_, ?_⟩
  · have h3 : U.card ≤ (U \ B).card + B.card := by
      have := le_card_sdiff B U
      omega
    rw [hUc] at h3
    have h4 : (𝕡 + 1) * Nat.card N ≤ (2 * X.card + ∑ i ∈ J, (𝕡 + 1) / el i) * Nat.card N := by
      calc _ ≤ _ := h3
        _ ≤ 2 * Nat.card N * X.card + ∑ i ∈ J, (𝕡 + 1) / el i * Nat.card N := Nat.add_le_add hX1 hBc
        _ = _ := by rw [← sum_mul]; ring
    exact Nat.le_of_mul_le_mul_right h4 hNp
  · intro x hx
    obtain ⟨P, hP, e⟩ := hX2 x hx
    obtain ⟨a1, a2, a3⟩ := hS P hP
    exact ⟨P, a1, e, a2, a3⟩

end Lemmas.CsidhCount
