import Verif.Lemmas.CsidhSuper
import Verif.Spec.Supersingular
import Verif.Props.CsidhCancel
/-
C106, C107 and C108: which curves the validation of a CSIDH public key accepts, and what is true of all supersingular keys, wherever they come from.
-/
namespace Props.CsidhSuper
open Model Model.Limb Model.Csidh Spec Spec.Csidh Lemmas.CsidhField Lemmas.CsidhKeys Lemmas.CsidhNat Lemmas.CsidhMade Lemmas.CsidhAgree Lemmas.CsidhSuper Lemmas.CsidhPke Props.CsidhAgree Props.CsidhLive
  Props.CsidhCancel Lemmas.CsidhBlocks Lemmas.CsidhRunAct Lemmas.CsidhRunKeys Lemmas.CsidhReader Finset

local notation "𝕡" => Spec.Csidh.p

theorem order_eq {q : ℕ} [Fact q.Prime] (h2 : q ≠ 2) {a : ZMod q} (ha : a ^ 2 ≠ 4) : order a = Nat.card (Verif.XOnly.W a).Point := by
  rw [Verif.Hasse.card_points (Verif.Hasse.two_ne h2) ha, order, Nat.add_comm 1, ← Nat.card_coe_set_eq]
  congr 1
  have : Nat.card (Σ x : ZMod q, {y : ZMod q // y ^ 2 = x ^ 3 + a * x ^ 2 + x}) = ∑ x, Verif.Hasse.nY a x := by
    rw [Nat.card_eq_fintype_card, Fintype.card_sigma]
    rfl
  rw [← this]
  refine Nat.card_congr ⟨fun P => ⟨P.1.1, P.1.2, P.2⟩, fun s => ⟨(s.1, s.2.1), s.2.2⟩, fun P => rfl, fun s => rfl⟩

theorem super_iff (a : ZMod 𝕡) : Supersingular a ↔ Super a := by
  constructor
  · rintro ⟨h1, h2, h3⟩
    have := sq_ne4 h1 h2
    exact ⟨this, by rw [← order_eq p_ne_two this]; exact h3⟩
  · rintro ⟨h1, h2⟩
    exact ⟨(ne_of_sq h1).1, (ne_of_sq h1).2, by rw [order_eq p_ne_two h1]; exact h2⟩

theorem dvd_card {q n c d : ℕ} {b : ℤ} (h1 : d ∣ q + 1) (h2 : d ∣ n) (hn : (n : ℤ) = q + 1 - b) (hc : (c : ℤ) = q + 1 - b ∨ (c : ℤ) = q + 1 + b) : (d : ℤ) ∣ b ∧ d ∣ c := by
  have hb : (d : ℤ) ∣ b := by
    have e : b = ((q + 1 : ℕ) : ℤ) - n := by push_cast; omega
    rw [e]
    exact dvd_sub (Int.natCast_dvd_natCast.mpr h1) (Int.natCast_dvd_natCast.mpr h2)
  refine ⟨hb, ?_⟩
  have h1' : (d : ℤ) ∣ q + 1 := by exact_mod_cast h1
  rcases hc with hc | hc
  · apply Int.natCast_dvd_natCast.mp
    rw [hc]
    exact dvd_sub h1' hb
  · apply Int.natCast_dvd_natCast.mp
    rw [hc]
    exact dvd_add h1' hb

theorem small {q d : ℕ} {b : ℤ} (hb : b ^ 2 ≤ 4 * q) (h0 : b ≠ 0) (hd : (d : ℤ) ∣ b) : d ^ 2 ≤ 4 * q := by
  have h1 : (d : ℤ) ≤ |b| := Int.le_of_dvd (abs_pos.mpr h0) ((dvd_abs _ _).mpr hd)
  have h2 : (d : ℤ) ^ 2 ≤ |b| ^ 2 := pow_le_pow_left₀ (Int.natCast_nonneg d) h1 2
  rw [sq_abs] at h2
  exact_mod_cast h2.trans hb

theorem not_super {q n c : ℕ} {b : ℤ} (hn : (n : ℤ) = q + 1 - b) (hc : (c : ℤ) = q + 1 - b ∨ (c : ℤ) = q + 1 + b) (h : c ≠ q + 1) : b ≠ 0 := by
  rintro rfl
  omega

/-- C106, in part. If `Validate` accepts a key, the key is the canonical representation of the coefficient of a supersingular curve; or else the number of points of
the curve has a divisor d in common with p + 1, between 2^64 and 2√p, with so many of the 74 primes that those counted by mistake (see C69) exceed 4√p.
Missing: that there is no such curve, which is not true in theory (see DESIGN.md). -/
theorem c106_accept_partial {pub : PublicKey} {rng rest : List Byte} (hl : pub.a.length = 8) (h : validate pub rng = some (true, rest)) :
    ∃ a : ZMod 𝕡, IsElt pub.a a ∧ a ≠ 2 ∧ a ≠ -2 ∧ (Supersingular a ∨
      ∃ d, d ∣ 𝕡 + 1 ∧ d ∣ order a ∧ 2 ^ 64 < d ∧ d ^ 2 ≤ 4 * 𝕡 ∧ 16 * 𝕡 < credit (fun i => decide (ell.getD i 0 ∣ d)) 0 74 ^ 2) := by
  classical
  obtain ⟨a, x, ha, h1, h2, H⟩ := Props.CsidhValidate.c69_accept_partial hl h
  refine ⟨a, ha, h1, h2, ?_⟩
  have hA := sq_ne4 h1 h2
  by_cases hs : Supersingular a
  · exact Or.inl hs
  right
  have hne : Nat.card (Verif.XOnly.W a).Point ≠ 𝕡 + 1 := fun hc => hs ((super_iff a).mpr ⟨hA, hc⟩)
  obtain ⟨n, b, S, s0, sx, sn, hn, hb, hcard⟩ := Verif.Hasse.exists_point (K := F) Lemmas.CsidhPrime.p_mod4 hA x
  have b0 := not_super hn hcard hne
  rcases H F S s0 sx with ⟨o1, o2⟩ | ⟨o1, o2, o3, o4⟩
  · exact absurd (trace_zero o1 (addOrderOf_dvd_of_nsmul_eq_zero sn) hn hb o2) b0
  · have hT := Props.CsidhValidate.is_origin ⟨o1, o2⟩
    have d1 : addOrderOf (4 • S) ∣ 𝕡 + 1 := by
      apply addOrderOf_dvd_of_nsmul_eq_zero
      rw [smul_comm, hT, show 4 = 2 * 2 from rfl, mul_smul, two_smul ℕ (Lemmas.CsidhValidate.Tp _), Lemmas.CsidhValidate.Tp_two, smul_zero]
    have d2 : addOrderOf (4 • S) ∣ n := by
      apply addOrderOf_dvd_of_nsmul_eq_zero
      rw [smul_comm, sn, smul_zero]
    obtain ⟨d3, d4⟩ := dvd_card d1 d2 hn hcard
    exact ⟨addOrderOf (4 • S), d1, by rw [order_eq p_ne_two hA]; exact d4, o3, small hb b0 d3, o4⟩

/-- C106. So if the curve of a key is not supersingular and its number of points has no divisor above 2^64 in common with p + 1, then the key is never accepted:
whatever the random source delivers, `Validate` refuses, and `DeriveSecret` fails and writes nothing. -/
theorem c106_refuse {pub : PublicKey} {a : ZMod 𝕡} (ha : IsElt pub.a a) (hs : ¬ Supersingular a) (hg : Nat.gcd (𝕡 + 1) (order a) ≤ 2 ^ 64) (sk : PrivateKey) (out rng rest : List Byte) :
    (∀ ok, validate pub rng = some (ok, rest) → ok = false) ∧
    ∀ out' ok, deriveSecret out pub sk rng = some (out', ok, rest) → ok = false ∧ out' = out := by
  have key : ∀ rest, validate pub rng ≠ some (true, rest) := by
    intro rest h
    obtain ⟨a', ha', -, -, h1 | ⟨d, d1, d2, d3, -⟩⟩ := c106_accept_partial ha.len h
    · rw [elt_inj ha' ha] at h1
      exact hs h1
    · rw [elt_inj ha' ha] at d2
      have := Nat.le_of_dvd (Nat.gcd_pos_of_pos_left _ (Nat.succ_pos _)) (Nat.dvd_gcd d1 d2)
      exact absurd (lt_of_lt_of_le d3 this) (not_lt.mpr hg)
  constructor
  · intro ok h
    cases ok
    · rfl
    · exact absurd h (key rest)
  · intro out' ok h
    rw [deriveSecret] at h
    match hv : validate pub rng with
    | none => rw [hv] at h; cases h
    | some (true, r) => exact absurd hv (key r)
    | some (false, r) =>
      rw [hv] at h
      simp only [Option.some.injEq, Prod.mk.injEq] at h
      exact ⟨h.2.1.symm, h.1.symm⟩

/-- C107. A key with the coefficient of a supersingular curve is never refused, it is accepted after 3/2 blocks of random bytes on average, and it
can be accepted whatever has been read. -/
theorem c107_accept {pub : PublicKey} {a : ZMod 𝕡} (ha : IsElt pub.a a) (hs : Supersingular a) :
    (∀ rng rest ok, validate pub rng = some (ok, rest) → ok = true) ∧ MeanBlocks (validate pub) (3 / 2) ∧
      ∀ pre, ∃ ext rest, validate pub (pre ++ ext) = some (true, rest) := by
  have hv : ∀ rng rest ok, validate pub rng = some (ok, rest) → ok = true := fun rng rest ok h => reach_valid ((super_iff a).mp hs) (reach_start ha) h
  obtain ⟨Γ, i, π, T, τ, g0, hc, hg⟩ := base_at ((super_iff a).mp hs)
  obtain ⟨h1, h2⟩ := val_mean hc ha hg
  have e := Props.CsidhValidate.validate_eq ha hs.1 hs.2.1
  refine ⟨hv, ?_, ?_⟩
  · intro n
    refine le_trans (le_of_eq ?_) (h1 n)
    refine sum_congr rfl fun k _ => ?_
    rw [unfinished, Lemmas.BlockExpect.frac]
    simp only [e]
  · intro pre
    obtain ⟨ext, h⟩ := h2 pre
    rw [← e] at h
    obtain ⟨⟨ok, rest⟩, h⟩ := Option.ne_none_iff_exists'.mp h
    obtain rfl := hv _ _ _ h
    exact ⟨ext, rest, h⟩

/-- The public keys that can be made from the key `pk0` by the owners of the private keys `l`, the last one first: the results of `DeriveSecret`, imported as
public keys and passed on. -/
inductive From (pk0 : PublicKey) : List PrivateKey → PublicKey → Prop
  | start : From pk0 [] pk0
  | derive {l : List PrivateKey} {pk : PublicKey} {sk : PrivateKey} {out out' rng rest : List Byte} {ok : Bool} (m : From pk0 l pk) (ho : out.length = 64)
      (h : deriveSecret out pk sk rng = some (out', ok, rest)) : From pk0 (sk :: l) (PublicKey.zero.importKey out').1

theorem from_reach {pk0 : PublicKey} {a : ZMod 𝕡} (ha : IsElt pk0.a a) (hs : Supersingular a) {l : List PrivateKey} {pk : PublicKey} (m : From pk0 l pk) : Reach a l pk := by
  induction m with
  | start => exact reach_start ha
  | derive _ ho h ih => exact reach_derive ((super_iff a).mp hs) ih ho h

theorem zero_super : Supersingular (0 : ZMod 𝕡) := by
  rw [super_iff]
  obtain ⟨Γ, i, π, T, τ, g0, hc, hg⟩ := base
  refine super_of_good (T := T) (τ := τ) (g0 := g0) (L := []) hc zero_elt ?_
  rw [map_zero]
  exact hg

/-- C107. Every public key that `GeneratePublicKey` makes, and every secret that `DeriveSecret` makes from such a key (and so on), is the coefficient of a
supersingular curve. -/
theorem c107_made {l : List PrivateKey} {pk : PublicKey} (m : Made l pk) : ∃ a, IsElt pk.a a ∧ Supersingular a := by
  obtain ⟨Γ, i, π, T, τ, g0, α, L, hc, ha, hg⟩ := orbit_good (made_orbit m)
  exact ⟨α, ha, (super_iff α).mpr (super_of_good hc ha hg)⟩

/-- C108. The same for a supersingular key of whatever origin: what is made from it is again supersingular. -/
theorem c108_super {pk0 : PublicKey} {a : ZMod 𝕡} (ha : IsElt pk0.a a) (hs : Supersingular a) {l : List PrivateKey} {pk : PublicKey} (m : From pk0 l pk) :
    ∃ a, IsElt pk.a a ∧ Supersingular a := by
  obtain ⟨a', h1, h2⟩ := reach_super ((super_iff a).mp hs) (from_reach ha hs m)
  exact ⟨a', h1, (super_iff a').mpr h2⟩

/-- C108. What is made from a supersingular key depends only on the sums of the exponents of the private keys used, for each prime: not on their order, and not on
the random source. -/
theorem c108_exponents {pk0 : PublicKey} {a : ZMod 𝕡} (ha : IsElt pk0.a a) (hs : Supersingular a) {l l' : List PrivateKey} {pk pk' : PublicKey} (m : From pk0 l pk) (m' : From pk0 l' pk')
    (h : ∀ i < 74, exponents l i = exponents l' i) : pk = pk' :=
  reach_net ((super_iff a).mp hs) (from_reach ha hs m) (from_reach ha hs m') h

/-- C108. `DeriveSecret` never fails on a supersingular key, and the secret is a function of the two keys: the random source does not matter. -/
theorem c108_secret {pk : PublicKey} {a : ZMod 𝕡} (ha : IsElt pk.a a) (hs : Supersingular a) (sk : PrivateKey) (out out1 out' out1' rng rng' rest rest' : List Byte) (ok ok' : Bool)
    (ho : out.length = 64) (ho' : out'.length = 64) (h : deriveSecret out pk sk rng = some (out1, ok, rest)) (h' : deriveSecret out' pk sk rng' = some (out1', ok', rest')) :
    ok = true ∧ out1 = out1' :=
  ⟨reach_ok ((super_iff a).mp hs) (reach_start ha) h,
    import_inj (derive_len ho h) (derive_len ho' h') (c108_exponents ha hs (.derive .start ho h) (.derive .start ho' h') fun _ _ => rfl)⟩

/-- C108. Two parties who both apply their private keys to the same supersingular key, one after the other, get the same secret in either order. -/
theorem c108_commute {pk : PublicKey} {a : ZMod 𝕡} (ha : IsElt pk.a a) (hs : Supersingular a) (skA skB : PrivateKey) (o1 o2 o3 o4 sA sB sAB sBA r1 r2 r3 r4 r1' r2' r3' r4' : List Byte) (k1 k2 k3 k4 : Bool)
    (h1 : o1.length = 64) (h2 : o2.length = 64) (h3 : o3.length = 64) (h4 : o4.length = 64)
    (e1 : deriveSecret o1 pk skA r1 = some (sA, k1, r1')) (e2 : deriveSecret o2 pk skB r2 = some (sB, k2, r2'))
    (e3 : deriveSecret o3 (PublicKey.zero.importKey sA).1 skB r3 = some (sAB, k3, r3')) (e4 : deriveSecret o4 (PublicKey.zero.importKey sB).1 skA r4 = some (sBA, k4, r4')) :
    k3 = true ∧ k4 = true ∧ sAB = sBA := by
  have m1 := From.derive .start h1 e1
  have m2 := From.derive .start h2 e2
  refine ⟨reach_ok ((super_iff a).mp hs) (from_reach ha hs m1) e3, reach_ok ((super_iff a).mp hs) (from_reach ha hs m2) e4, ?_⟩
  refine import_inj (derive_len h3 e3) (derive_len h4 e4) (c108_exponents ha hs (.derive m1 h3 e3) (.derive m2 h4 e4) fun i _ => ?_)
  simp only [exponents, List.map_cons, List.map_nil, List.sum_cons, List.sum_nil]
  omega

/-- C108. And both calls can always be finished: for every supersingular key and every private key. -/
theorem c108_live {pk : PublicKey} {a : ZMod 𝕡} (ha : IsElt pk.a a) (hs : Supersingular a) (sk : PrivateKey) (out : List Byte) :
    MeanBlocks (deriveSecret out pk sk) (3 / 2 + 4 * (isogenies sk + 2)) ∧ ∀ pre, ∃ ext ss rest, deriveSecret out pk sk (pre ++ ext) = some (ss, true, rest) := by
  obtain ⟨Γ, i, π, T, τ, g0, hc, hg⟩ := base_at ((super_iff a).mp hs)
  obtain ⟨h1, h2⟩ := der_mean hc ha hg (start_going ha hg sk)
  have e : ∀ r, deriveSecret out pk sk r = none ↔ (derMach pk.a (start pk.a sk)).stuck none r := by
    intro r
    rw [deriveSecret, Props.CsidhValidate.validate_eq ha hs.1 hs.2.1]
    show _ ↔ match validateLoop pk.a r with
      | none => True
      | some (false, _) => False
      | some (true, l') => actRounds actRound (start pk.a sk) l' = none
    match validateLoop pk.a r with
    | none => simp
    | some (false, l') => simp
    | some (true, l') =>
      simp only
      rw [← action_none]
      cases groupAction pk.a sk l' <;> simp
  constructor
  · intro n
    have := h1 n
    rw [start_mu] at this
    refine le_trans (le_of_eq ?_) (le_trans this (le_of_eq (by rw [isogenies]; push_cast; ring)))
    refine sum_congr rfl fun k _ => ?_
    rw [unfinished, Lemmas.BlockExpect.frac]
    simp only [e]
  · intro pre
    obtain ⟨ext, h⟩ := h2 pre
    have h := mt (e _).mp h
    obtain ⟨⟨ss, ok, rest⟩, h⟩ := Option.ne_none_iff_exists'.mp h
    obtain rfl := reach_ok ((super_iff a).mp hs) (reach_start ha) h
    exact ⟨ext, ss, rest, h⟩

/-! ### Cases -/

/-- Supersingular coefficients other than 0, and a coefficient that is not. -/
theorem case_super : (∃ a, IsElt (lit eA) a ∧ a ≠ 0 ∧ Supersingular a) ∧ ¬ Supersingular (1 : ZMod 𝕡) := by
  constructor
  · obtain ⟨a, h1, h2⟩ := c107_made (.gen (case_agree (List.replicate 64 0) (by simp) []).2.1)
    refine ⟨a, h1, ?_, h2⟩
    rintro rfl
    have := elt_unique h1 zero_elt
    exact absurd this (by decide +kernel)
  · intro h
    have := (c107_accept (pub := ⟨one⟩) one_elt h).1 _ _ _ (Props.CsidhValidate.refused [])
    cases this

/-- The hypotheses of c106_accept_partial are met: the key 0 is accepted. -/
example : validate ⟨List.replicate 8 0⟩ (fpBytes four ++ []) = some (true, []) ∧ Supersingular (0 : ZMod 𝕡) := ⟨Props.CsidhValidate.accepted [], zero_super⟩

/-- the pairs on y² = x (x + 1)² are (t², t (t² + 1)) and (-1, 0) -/
theorem order_two : order (2 : ZMod 𝕡) = 𝕡 + 2 := by
  have hn : ∀ t : ZMod 𝕡, t ^ 2 + 1 ≠ 0 := fun t h => Verif.Hasse.neg_one_ns Lemmas.CsidhPrime.p_mod4 ⟨t, by linear_combination -h⟩
  have e : curvePoints (2 : ZMod 𝕡) = insert (-1, 0) (Set.range fun t : ZMod 𝕡 => (t ^ 2, t * (t ^ 2 + 1))) := by
    ext ⟨x, y⟩
    simp only [curvePoints, Set.mem_ofPred_eq, Set.mem_insert_iff, Set.mem_range, Prod.mk.injEq]
    constructor
    · intro h
      by_cases hx : x + 1 = 0
      · left
        refine ⟨by linear_combination hx, ?_⟩
        apply pow_eq_zero_iff (n := 2) two_ne_zero |>.mp
        linear_combination h + (x ^ 2 + x) * hx
      · right
        have e1 : (y / (x + 1)) ^ 2 = x := by
          rw [div_pow, div_eq_iff (pow_ne_zero 2 hx)]
          linear_combination h
        exact ⟨y / (x + 1), e1, by rw [e1, div_mul_cancel₀ _ hx]⟩
    · rintro (⟨rfl, rfl⟩ | ⟨t, rfl, rfl⟩) <;> ring
  have inj : Function.Injective fun t : ZMod 𝕡 => (t ^ 2, t * (t ^ 2 + 1)) := by
    intro t u h
    simp only [Prod.mk.injEq] at h
    have := h.2
    rw [← h.1] at this
    exact mul_right_cancel₀ (hn t) this
  have hm : ((-1, 0) : ZMod 𝕡 × ZMod 𝕡) ∉ Set.range fun t : ZMod 𝕡 => (t ^ 2, t * (t ^ 2 + 1)) := by
    rintro ⟨t, h⟩
    simp only [Prod.mk.injEq] at h
    exact hn t (by rw [h.1]; ring)
  rw [order, e, Set.ncard_insert_of_notMem hm (Set.toFinite _), Set.ncard_range_of_injective inj, Nat.card_zmod]

/-- The hypotheses of c106_refuse are met, here by a curve with a singular point. (The number of points of a regular curve that is not supersingular cannot be
counted here; the curve with coefficient 1 is one that is not supersingular.) -/
example : IsElt two 2 ∧ ¬ Supersingular (2 : ZMod 𝕡) ∧ Nat.gcd (𝕡 + 1) (order (2 : ZMod 𝕡)) ≤ 2 ^ 64 := by
  refine ⟨?_, fun h => h.1 rfl, ?_⟩
  · exact two_elt
  · rw [order_two, show 𝕡 + 2 = (𝕡 + 1) + 1 from rfl, Nat.coprime_self_add_right.mpr (Nat.coprime_one_right _)]
    norm_num

/-- The hypotheses of c108_commute can be met from any supersingular key, here from one other than 0. -/
example (skA skB : PrivateKey) : ∃ a sA sB sAB r1 r2 r3 r4 r1' r2' r3' r4', IsElt (lit eA) a ∧ Supersingular a ∧
    deriveSecret (List.replicate 64 0) ⟨lit eA⟩ skA r1 = some (sA, true, r1') ∧ deriveSecret (List.replicate 64 0) ⟨lit eA⟩ skB r2 = some (sB, true, r2') ∧
    deriveSecret (List.replicate 64 0) (PublicKey.zero.importKey sA).1 skB r3 = some (sAB, true, r3') ∧
    deriveSecret (List.replicate 64 0) (PublicKey.zero.importKey sB).1 skA r4 = some (sAB, true, r4') := by
  obtain ⟨a, ha, -, hs⟩ := case_super.1
  obtain ⟨r1, sA, r1', e1⟩ := (c108_live (pk := ⟨lit eA⟩) ha hs skA (List.replicate 64 0)).2 []
  obtain ⟨r2, sB, r2', e2⟩ := (c108_live (pk := ⟨lit eA⟩) ha hs skB (List.replicate 64 0)).2 []
  obtain ⟨a1, ha1, hs1⟩ := c108_super (pk0 := ⟨lit eA⟩) ha hs (.derive .start (by simp) e1)
  obtain ⟨a2, ha2, hs2⟩ := c108_super (pk0 := ⟨lit eA⟩) ha hs (.derive .start (by simp) e2)
  obtain ⟨r3, sAB, r3', e3⟩ := (c108_live ha1 hs1 skB (List.replicate 64 0)).2 []
  obtain ⟨r4, sBA, r4', e4⟩ := (c108_live ha2 hs2 skA (List.replicate 64 0)).2 []
  obtain ⟨-, -, rfl⟩ := c108_commute (pk := ⟨lit eA⟩) ha hs skA skB _ _ _ _ _ _ _ _ _ _ _ _ _ _ _ _ _ _ _ _ (by simp) (by simp) (by simp) (by simp) e1 e2 e3 e4
  exact ⟨a, sA, sB, sAB, _, _, _, _, _, _, _, _, ha, hs, e1, e2, e3, e4⟩

end Props.CsidhSuper
