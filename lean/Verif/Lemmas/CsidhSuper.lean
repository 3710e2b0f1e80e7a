import Verif.Lemmas.HasseFrob
import Verif.Lemmas.CsidhBlocks
import Verif.Lemmas.CsidhCancel
import Verif.Lemmas.CsidhTwist

/-!
Curves with p + 1 points: any of them can take the place of the starting curve, and the curves reached have p + 1 points.
-/

namespace Lemmas.CsidhSuper

open Model Model.Limb Model.Csidh Lemmas.CsidhNat Lemmas.CsidhField Lemmas.CsidhCurve Lemmas.CsidhAction Lemmas.CsidhCof
  Lemmas.CsidhKeys Lemmas.CsidhOrbit Lemmas.CsidhCount Lemmas.CsidhAgree Lemmas.CsidhMade Lemmas.CsidhBlocks Lemmas.CsidhCancel Verif.XOnly Verif.Colon Spec Spec.Csidh

local notation "𝕡" => Spec.Csidh.p

theorem trace_zero {m q n : ℕ} {b : ℤ} (h1 : m ∣ q + 1) (h2 : m ∣ n) (hn : (n : ℤ) = q + 1 - b) (hb : b ^ 2 ≤ 4 * q) (hm : 16 * q < m ^ 2) : b = 0 := by
  have hd : (m : ℤ) ∣ b := by
    have e : b = ((q + 1 : ℕ) : ℤ) - n := by push_cast; omega
    rw [e]
    exact dvd_sub (Int.natCast_dvd_natCast.mpr h1) (Int.natCast_dvd_natCast.mpr h2)
  refine Int.eq_zero_of_abs_lt_dvd hd ?_
  have hm' : (16 * q : ℤ) < (m : ℤ) ^ 2 := by exact_mod_cast hm
  refine abs_lt_of_sq_lt_sq (lt_of_le_of_lt hb (lt_of_le_of_lt ?_ hm')) (Int.natCast_nonneg m)
  have : (0 : ℤ) ≤ q := Int.natCast_nonneg q
  omega

theorem half {q n : ℕ} (h : q + 1 + n = 2 * q + 2) : n = q + 1 := by omega

theorem card_of {q n : ℕ} (h : (n : ℤ) = q + 1 - 0 ∨ (n : ℤ) = q + 1 + 0) : n = q + 1 := by omega

theorem p_ne_two : 𝕡 ≠ 2 := by
  have := Lemmas.CsidhPrime.p_mod4
  intro h
  omega

/-- the coefficient of a curve with p + 1 points -/
def Super (a : ZMod 𝕡) : Prop := a ^ 2 ≠ 4 ∧ Nat.card (W a).Point = 𝕡 + 1

/-- the group of such a curve with its Frobenius endomorphism -/
theorem base_at {a : ZMod 𝕡} (h : Super a) : ∃ (Γ : Type) (_ : AddCommGroup Γ) (π : Γ →+ Γ) (T τ : Γ) (g0 : Γ → F),
    (∀ s, Nat.card (eig π s).ker = 𝕡 + 1) ∧ Good π T τ g0 (algebraMap (ZMod 𝕡) F a) [] := by
  classical
  have hp := Lemmas.CsidhPrime.p_mod4
  obtain ⟨ha, hc⟩ := h
  obtain ⟨π, hπ⟩ := Verif.Hasse.exists_pi (K := F) a
  obtain ⟨i, hi⟩ := IsAlgClosed.exists_pow_nat_eq (-1 : F) (n := 2) (by decide)
  obtain ⟨T, τ, I⟩ := Verif.Hasse.iso_start hπ (Verif.Hasse.two_ne p_ne_two) ha
  refine ⟨(W (algebraMap (ZMod 𝕡) F a)).Point, inferInstance, π, T, τ, xc, ?_, ⊥, xc, yc, I, rfl, canon_base _⟩
  intro s
  cases s
  · rw [Verif.Hasse.card_fix hπ (Verif.Hasse.two_ne p_ne_two) ha, hc]
  · rw [Verif.Hasse.card_neg hπ hp ha hi]
    have := Verif.Hasse.card_twist hp ha
    rw [hc] at this
    exact half this

theorem sq_ne4 {a : ZMod 𝕡} (h1 : a ≠ 2) (h2 : a ≠ -2) : a ^ 2 ≠ 4 := by
  intro h
  have : (a - 2) * (a + 2) = 0 := by linear_combination h
  rcases mul_eq_zero.mp this with h | h
  · exact h1 (by linear_combination h)
  · exact h2 (by linear_combination h)

theorem ne_of_sq {a : ZMod 𝕡} (h : a ^ 2 ≠ 4) : a ≠ 2 ∧ a ≠ -2 := by
  constructor
  · rintro rfl
    exact h (by norm_num)
  · rintro rfl
    exact h (by norm_num)

/-- a curve that is reached has p + 1 points -/
theorem super_of_good {Γ : Type} [AddCommGroup Γ] {π : Γ →+ Γ} {T τ : Γ} {g0 : Γ → F} (hc : ∀ s, Nat.card (eig π s).ker = 𝕡 + 1) {L : List (ℕ × Bool)} {a : ZMod 𝕡} {la : Fp}
    (ha : IsElt la a) (hg : Good π T τ g0 (algebraMap (ZMod 𝕡) F a) L) : Super a := by
  classical
  have hA : a ^ 2 ≠ 4 := by
    obtain ⟨N, g, y, I, hN, can⟩ := hg
    have := Lemmas.CsidhIso.A_sq I.x I.t
    intro h
    apply this
    rw [← map_pow, h, map_ofNat]
  obtain ⟨n1, n2⟩ := ne_of_sq hA
  refine ⟨hA, ?_⟩
  obtain ⟨ext, hv⟩ := (val_mean hc ha hg).2 []
  rw [← Props.CsidhValidate.validate_eq (pub := ⟨la⟩) ha n1 n2] at hv
  obtain ⟨⟨ok, rest⟩, hv⟩ := Option.ne_none_iff_exists'.mp hv
  cases ok
  · exact absurd hv (good_validate (pub := ⟨la⟩) hc ha hg)
  obtain ⟨a', x, ha', -, -, H⟩ := Props.CsidhValidate.c69_accept_partial (pub := ⟨la⟩) ha.len hv
  obtain rfl := elt_inj ha' ha
  obtain ⟨n, b, S, s0, sx, sn, hn, hb, hcard⟩ := Verif.Hasse.exists_point (K := F) Lemmas.CsidhPrime.p_mod4 hA x
  have ho := good_order hc hg s0 sx
  rcases H F S s0 sx with ⟨o1, o2⟩ | ⟨o1, -⟩
  · have := trace_zero o1 (addOrderOf_dvd_of_nsmul_eq_zero sn) hn hb o2
    subst this
    exact card_of hcard
  · exact absurd ho o1

/-- the key is reached from the curve with coefficient a0 by the private keys -/
def Reach (a0 : ZMod 𝕡) (l : List PrivateKey) (pk : PublicKey) : Prop :=
  ∃ a : ZMod 𝕡, IsElt pk.a a ∧ ∃ L, Fits l L ∧ ∀ (Γ : Type) (_ : AddCommGroup Γ) (π : Γ →+ Γ) (T τ : Γ) (g0 : Γ → F),
    (∀ s, Nat.card (eig π s).ker = 𝕡 + 1) → Good π T τ g0 (algebraMap (ZMod 𝕡) F a0) [] → Good π T τ g0 (algebraMap (ZMod 𝕡) F a) L

theorem reach_start {a0 : ZMod 𝕡} {pk : PublicKey} (h : IsElt pk.a a0) : Reach a0 [] pk := ⟨a0, h, [], Fits.nil, fun _ _ _ _ _ _ _ h => h⟩

variable {a0 : ZMod 𝕡} (hs : Super a0)

include hs

theorem reach_act {l : List PrivateKey} {pk : PublicKey} {sk : PrivateKey} {rng rest : List Byte} {a : Fp} (h : Reach a0 l pk) (hg : groupAction pk.a sk rng = some (a, rest)) :
    Reach a0 (sk :: l) ⟨a⟩ := by
  rw [groupAction, Option.map_eq_some_iff] at hg
  obtain ⟨⟨s, r⟩, h1, h2⟩ := hg
  cases h2
  obtain ⟨α, ha, L, hL, H⟩ := h
  obtain ⟨Γ, _, π, T, τ, g0, hc, hb⟩ := base_at hs
  obtain ⟨a', ha', -⟩ := groupAction_good hc ha (H Γ _ π T τ g0 hc hb) h1
  refine ⟨a', ha', L ++ degs s.log, hL.append (degs_fits h1), ?_⟩
  intro Γ _ π T τ g0 hc hb
  obtain ⟨a'', ha'', hg⟩ := groupAction_good hc ha (H Γ _ π T τ g0 hc hb) h1
  rw [elt_inj ha' ha'']
  exact hg

theorem reach_good {l : List PrivateKey} {pk : PublicKey} (h : Reach a0 l pk) : ∃ (Γ : Type) (_ : AddCommGroup Γ) (π : Γ →+ Γ) (T τ : Γ) (g0 : Γ → F) (a : ZMod 𝕡) (L : List (ℕ × Bool)),
    (∀ s, Nat.card (eig π s).ker = 𝕡 + 1) ∧ IsElt pk.a a ∧ Good π T τ g0 (algebraMap (ZMod 𝕡) F a) L := by
  obtain ⟨α, ha, L, hL, H⟩ := h
  obtain ⟨Γ, i, π, T, τ, g0, hc, hb⟩ := base_at hs
  exact ⟨Γ, i, π, T, τ, g0, α, L, hc, ha, H Γ _ π T τ g0 hc hb⟩

theorem reach_super {l : List PrivateKey} {pk : PublicKey} (h : Reach a0 l pk) : ∃ a, IsElt pk.a a ∧ Super a := by
  obtain ⟨Γ, i, π, T, τ, g0, α, L, hc, ha, hg⟩ := reach_good hs h
  exact ⟨α, ha, super_of_good hc ha hg⟩

theorem reach_valid {l : List PrivateKey} {pk : PublicKey} (h : Reach a0 l pk) {rng rest : List Byte} {ok : Bool} (hv : validate pk rng = some (ok, rest)) : ok = true := by
  obtain ⟨Γ, i, π, T, τ, g0, α, L, hc, ha, hg⟩ := reach_good hs h
  cases ok
  · exact absurd hv (good_validate hc ha hg)
  · rfl

omit hs in
theorem reach_len {l : List PrivateKey} {pk : PublicKey} (h : Reach a0 l pk) : pk.a.length = 8 := by
  obtain ⟨α, ha, -⟩ := h
  exact ha.len

theorem reach_ok {l : List PrivateKey} {pk : PublicKey} {sk : PrivateKey} {out out' rng rest : List Byte} {ok : Bool} (h : Reach a0 l pk)
    (hd : deriveSecret out pk sk rng = some (out', ok, rest)) : ok = true := by
  rw [deriveSecret] at hd
  match hv : validate pk rng with
  | none => rw [hv] at hd; cases hd
  | some (b, r) =>
    obtain rfl := reach_valid hs h hv
    rw [hv] at hd
    simp only at hd
    match hg : groupAction pk.a sk r with
    | none => rw [hg] at hd; cases hd
    | some (a, r') => rw [hg] at hd; cases hd; rfl

theorem reach_derive {l : List PrivateKey} {pk : PublicKey} {sk : PrivateKey} {out out' rng rest : List Byte} {ok : Bool} (h : Reach a0 l pk) (ho : out.length = 64)
    (hd : deriveSecret out pk sk rng = some (out', ok, rest)) : Reach a0 (sk :: l) (PublicKey.zero.importKey out').1 := by
  rw [deriveSecret] at hd
  match hv : validate pk rng with
  | none => rw [hv] at hd; cases hd
  | some (b, r) =>
    obtain rfl := reach_valid hs h hv
    rw [hv] at hd
    simp only at hd
    match hg : groupAction pk.a sk r with
    | none => rw [hg] at hd; cases hd
    | some (a, r') =>
      rw [hg] at hd
      simp only [Option.some.injEq, Prod.mk.injEq] at hd
      have := reach_act hs h hg
      rw [← hd.1, import_export (reach_len this) ho]
      exact this

theorem reach_net {l l' : List PrivateKey} {pk pk' : PublicKey} (h : Reach a0 l pk) (h' : Reach a0 l' pk')
    (ht : ∀ i < 74, (l.map fun sk => exponent sk.e i).sum = (l'.map fun sk => exponent sk.e i).sum) : pk = pk' := by
  obtain ⟨α, ha, L, hL, H⟩ := h
  obtain ⟨α', ha', L', hL', H'⟩ := h'
  obtain ⟨Γ, _, π, T, τ, g0, hc, hb⟩ := base_at hs
  have := good_balanced hc hb hL.mem hL'.mem ?_ (H Γ _ π T τ g0 hc hb) (H' Γ _ π T τ g0 hc hb)
  · have := (algebraMap (ZMod 𝕡) F).injective this
    subst this
    cases pk; cases pk'
    congr 1
    exact elt_unique ha ha'
  · rintro ⟨d, s⟩
    by_cases hd : ∃ i < 74, d = (word primes i).toNat
    · obtain ⟨i, hi, rfl⟩ := hd
      have e1 := total_net l i
      have e2 := total_net l' i
      have e3 := ht i hi
      rw [← e1, ← e2] at e3
      have c1 := hL.count i hi
      have c2 := hL'.count i hi
      simp only [rev, c1, c2]
      cases s
      · simp only [Bool.not_false]; omega
      · simp only [Bool.not_true]; omega
    · have z : ∀ s, L.count (d, s) = 0 ∧ L'.count (d, s) = 0 := fun s =>
        ⟨List.count_eq_zero.mpr fun hm => hd (hL.mem _ hm), List.count_eq_zero.mpr fun hm => hd (hL'.mem _ hm)⟩
      simp only [rev, z]

end Lemmas.CsidhSuper
