import Verif.Lemmas.CsidhLive

/-!
The loops of the CSIDH code as machines that read blocks of 64 bytes.
-/

namespace Lemmas.CsidhBlocks

open Model Model.Limb Model.Csidh Lemmas.CsidhNat Lemmas.CsidhLadder Lemmas.CsidhIso Lemmas.CsidhCof Lemmas.CsidhField Lemmas.CsidhCurve Lemmas.CsidhAction
  Lemmas.CsidhKeys Lemmas.CsidhOrbit Lemmas.CsidhCount Lemmas.CsidhLive Lemmas.CsidhAgree Lemmas.CsidhMade Verif.XOnly Verif.Colon Spec Spec.Csidh Finset Lemmas.BlockExpect

local notation "𝕡" => Spec.Csidh.p

/-! ### One block -/

theorem randFp_short {l : List Model.Byte} (h : l.length < 64) : randFp l = none := by rw [randFp, dif_pos h]

theorem randFp_block {b : List Model.Byte} (hb : b.length = 64) (l : List Model.Byte) :
    randFp (b ++ l) = if isLess (Model.Csidh.candidate b) Model.Csidh.p then some (Model.Csidh.candidate b, l) else randFp l := by
  have e1 : (b ++ l).take 64 = b := by rw [← hb, List.take_left]
  have e2 : (b ++ l).drop 64 = l := by rw [← hb, List.drop_left]
  rw [randFp, dif_neg (by rw [List.length_append]; omega)]
  simp only [e1, e2]

theorem cand_elt {b : List Model.Byte} (hb : b.length = 64) (h : isLess (Model.Csidh.candidate b) Model.Csidh.p = true) : ∃ v, IsElt (Model.Csidh.candidate b) v :=
  randFp_elt (rng := b ++ []) (rest := []) (by rw [randFp_block hb, if_pos h])

theorem rounds_none {round : RoundSt → Fp → Option RoundSt} {s : RoundSt} {rng : List Model.Byte} (hr : randFp rng = none) : actRounds round s rng = none := by
  rw [actRounds]
  split
  · rfl
  · rename_i h
    rw [hr] at h
    cases h

theorem rounds_some {round : RoundSt → Fp → Option RoundSt} {s : RoundSt} {rng rest : List Model.Byte} {x : Fp} (hr : randFp rng = some (x, rest)) :
    actRounds round s rng = match round s x with
      | none => actRounds round s rest
      | some s' => if s'.h0.done && s'.h1.done then some (s', rest) else actRounds round s' rest := by
  rw [actRounds]
  split
  · rename_i h; rw [hr] at h; cases h
  · rename_i h
    rw [hr] at h
    obtain ⟨rfl, rfl⟩ := Prod.mk.injEq _ _ _ _ ▸ Option.some.inj h
    rfl

theorem rounds_rand {round : RoundSt → Fp → Option RoundSt} {s : RoundSt} {l l' : List Model.Byte} (h : randFp l = randFp l') : actRounds round s l = actRounds round s l' := by
  cases hr : randFp l' with
  | none => rw [rounds_none hr, rounds_none (h.trans hr)]
  | some v =>
    obtain ⟨x, rest⟩ := v
    rw [rounds_some hr, rounds_some (h.trans hr)]

theorem loop_none {a : Fp} {rng : List Model.Byte} (hr : randFp rng = none) : validateLoop a rng = none := by
  rw [validateLoop]
  split
  · rfl
  · rename_i h
    rw [hr] at h
    cases h

theorem loop_rand {a : Fp} {l l' : List Model.Byte} (h : randFp l = randFp l') : validateLoop a l = validateLoop a l' := by
  cases hr : randFp l' with
  | none => rw [loop_none hr, loop_none (h.trans hr)]
  | some v =>
    obtain ⟨x, rest⟩ := v
    rw [Lemmas.CsidhValidate.validateLoop_def hr, Lemmas.CsidhValidate.validateLoop_def (h.trans hr)]

/-- numbers and the blocks that give them: two blocks each -/
theorem blocks (X : Finset (ZMod 𝕡)) : ∃ G : Finset Block, 2 * X.card ≤ G.card ∧
    ∀ b ∈ G, isLess (Model.Csidh.candidate b.1) Model.Csidh.p = true ∧ ∃ x ∈ X, IsElt (Model.Csidh.candidate b.1) x := by
  classical
  choose lx hlx using fun x : ZMod 𝕡 => elt_exists x
  have hlt : ∀ x (β : Bool), val (lx x) + (if β then 2 ^ 511 else 0) < 256 ^ 64 := by
    intro x β
    have h1 := (hlx x).lt
    have h2 : 𝕡 < 2 ^ 511 := by decide +kernel
    have h3 := lt_trans h1 h2
    have e : 256 ^ 64 = 2 ^ 511 + 2 ^ 511 := by decide +kernel
    rw [e]
    generalize 2 ^ 511 = q at h3 ⊢
    split <;> omega
  let f : ZMod 𝕡 × Bool → Block := fun z => ⟨leBytes 64 (val (lx z.1) + if z.2 then 2 ^ 511 else 0), Lemmas.SidhBytes.leBytes_length _ _⟩
  have hbv : ∀ z, bval (f z).1 = val (lx z.1) + if z.2 then 2 ^ 511 else 0 := by
    intro z
    show bval (leBytes 64 _) = _
    rw [Lemmas.SidhBytes.bval_leBytes, Nat.mod_eq_of_lt (hlt z.1 z.2)]
  have hc : ∀ z, Model.Csidh.candidate (f z).1 = lx z.1 := by
    intro z
    obtain ⟨c1, c2⟩ := candidate_val (f z).1 (f z).2
    apply Lemmas.Limb.val_inj (c1.trans (hlx z.1).len.symm)
    rw [c2, hbv]
    have h1 := (hlx z.1).lt
    have h2 : 𝕡 < 2 ^ 511 := by decide +kernel
    have h3 := lt_trans h1 h2
    generalize 2 ^ 511 = q at h3 ⊢
    split
    · rw [Nat.add_mod_right, Nat.mod_eq_of_lt h3]
    · rw [Nat.add_zero, Nat.mod_eq_of_lt h3]
  have finj : Function.Injective f := by
    intro z z' e
    have e1 : z.1 = z'.1 := by
      apply elt_inj (hlx z.1)
      rw [← hc z, e, hc z']
      exact hlx z'.1
    have e2 := hbv z
    rw [e, hbv z', e1] at e2
    refine Prod.ext e1 ?_
    have hpos : 0 < 2 ^ 511 := by decide +kernel
    have e3 := Nat.add_left_cancel e2
    generalize 2 ^ 511 = q at e3 hpos
    cases h : z.2 <;> cases h' : z'.2 <;> simp only [h, h'] at e3 <;> first | rfl | (simp at e3; omega)
  refine ⟨(X ×ˢ univ).image f, ?_, ?_⟩
  · rw [card_image_of_injective _ finj, card_product, card_univ, Fintype.card_bool, mul_comm]
  · intro b hb
    obtain ⟨z, hz, rfl⟩ := mem_image.mp hb
    rw [hc]
    refine ⟨?_, z.1, (mem_product.mp hz).1, hlx z.1⟩
    rw [Lemmas.CsidhArith.isLess_spec _ _ (by rw [(hlx z.1).len]; rfl), Lemmas.CsidhArith.p_val]
    exact (hlx z.1).lt

/-! ### The group action -/

/-- one block read by the group action -/
def actBlock (s : RoundSt) (b : List Model.Byte) : Option RoundSt :=
  if isLess (Model.Csidh.candidate b) Model.Csidh.p then
    match actRound s (Model.Csidh.candidate b) with
    | none => some s
    | some s' => if s'.h0.done && s'.h1.done then none else some s'
  else some s

theorem rounds_block {b : List Model.Byte} (hb : b.length = 64) (s : RoundSt) (l : List Model.Byte) :
    actRounds actRound s (b ++ l) = none ↔ ∃ s', actBlock s b = some s' ∧ actRounds actRound s' l = none := by
  have hr := randFp_block hb l
  rw [actBlock]
  by_cases h : isLess (Model.Csidh.candidate b) Model.Csidh.p = true
  · rw [if_pos h] at hr
    rw [if_pos h, rounds_some hr]
    generalize actRound s (Model.Csidh.candidate b) = o
    cases o with
    | none => simp
    | some s' =>
      simp only
      by_cases hd : (s'.h0.done && s'.h1.done) = true
      · rw [if_pos hd, if_pos hd]; simp
      · rw [if_neg hd, if_neg hd]; simp
  · rw [if_neg h] at hr
    rw [if_neg h, rounds_rand hr]
    simp

def actMach : Mach RoundSt where
  stuck s l := actRounds actRound s l = none
  step := actBlock
  cons s b l hb := rounds_block hb s l

variable {K : Type} [Field K] [Algebra (ZMod 𝕡) K] [IsAlgClosed K] {Γ : Type*} [AddCommGroup Γ] {N : AddSubgroup Γ} {π : Γ →+ Γ} {T τ : Γ} {g g0 y : Γ → K}

/-- the invariant of the rounds that are not the last -/
def Going (π : Γ →+ Γ) (T τ : Γ) (g0 : Γ → K) (L : List (ℕ × Bool)) (s : RoundSt) : Prop := RS π T τ g0 L s ∧ ¬ (s.h0.done && s.h1.done) = true

theorem act_inv (hcard : ∀ s, Nat.card (eig π s).ker = 𝕡 + 1) {L : List (ℕ × Bool)} {s s' : RoundSt} {b : List Model.Byte} (hb : b.length = 64) (h : Going π T τ g0 L s) (hs : actBlock s b = some s') :
    Going π T τ g0 L s' ∧ mu s' ≤ mu s := by
  rw [actBlock] at hs
  split at hs
  · rename_i hl
    have hx := cand_elt hb hl
    generalize Model.Csidh.candidate b = x at hs hx
    cases hr : actRound s x with
    | none =>
      rw [hr] at hs
      obtain rfl := Option.some.inj hs
      exact ⟨h, le_rfl⟩
    | some s1 =>
      rw [hr] at hs
      simp only at hs
      split at hs
      · cases hs
      · rename_i hd
        obtain rfl := Option.some.inj hs
        exact ⟨⟨actRound_good hcard h.1 hx hr, hd⟩, round_mu h.1.l0 h.1.l1 hr⟩
  · obtain rfl := Option.some.inj hs
    exact ⟨h, le_rfl⟩

theorem three_four : 3 * 256 ^ 64 ≤ 8 * (𝕡 + 1) := by decide +kernel

theorem act_pot (hcard : ∀ s, Nat.card (eig π s).ker = 𝕡 + 1) {L : List (ℕ × Bool)} {s : RoundSt} (h : Going π T τ g0 L s) :
    ∃ G : Finset Block, 256 ^ 64 ≤ 4 * G.card ∧ ∀ b ∈ G, actBlock s b.1 = none ∨ ∃ s', actBlock s b.1 = some s' ∧ mu s' + 1 ≤ mu s := by
  obtain ⟨sg, hsg⟩ : ∃ sg : Bool, (if sg then s.h1 else s.h0).done = false := by
    have := h.2
    by_cases h0 : s.h0.done = true
    · exact ⟨true, by simpa [h0] using this⟩
    · exact ⟨false, by simpa using h0⟩
  obtain ⟨X, hX1, hX2⟩ := progress hcard h.1 hsg
  obtain ⟨G, hG1, hG2⟩ := blocks X
  refine ⟨G, ?_, fun b hb => ?_⟩
  · have h3 := three_four
    generalize 256 ^ 64 = q at h3 ⊢
    generalize 𝕡 + 1 = r at hX1 h3
    omega
  · obtain ⟨hl, x, hx, he⟩ := hG2 b hb
    obtain ⟨s', hr, hm⟩ := hX2 x hx _ he
    rw [actBlock, if_pos hl, hr]
    simp only
    split
    · exact Or.inl rfl
    · exact Or.inr ⟨s', rfl, hm⟩

theorem going_pos {L : List (ℕ × Bool)} {s : RoundSt} (h : Going π T τ g0 L s) : 1 ≤ mu s := by
  have := h.2
  rw [mu, left, left]
  cases h0 : s.h0.done <;> cases h1 : s.h1.done <;> simp_all <;> omega

/-! ### The validation -/

/-- the loop of `Validate` is decided with the number x -/
def decided (a x : Fp) : Bool × Bool × Fp := cofactorMul (xDbl limbOps (xDbl limbOps ⟨x, one⟩ ⟨a, one⟩) ⟨a, one⟩) ⟨a, one⟩ 0 74 (fpw 1)

theorem loop_some {a x : Fp} {rng rest : List Model.Byte} (hr : randFp rng = some (x, rest)) :
    validateLoop a rng = if (decided a x).1 then some ((decided a x).2.1, rest) else validateLoop a rest := Lemmas.CsidhValidate.validateLoop_def hr

theorem exists_fp {v : ℕ} (hv : v < 2 ^ 512) : ∃ k : Fp, k.length = 8 ∧ val k = v := by
  have hw : ∀ (n v : Nat), v < 2 ^ (64 * n) → ∃ l : List W64, l.length = n ∧ Spec.val l = v := by
    intro n
    induction n with
    | zero => intro v hv; exact ⟨[], rfl, by simp at hv; rw [hv]; rfl⟩
    | succ n ih =>
      intro v hv
      obtain ⟨l, h1, h2⟩ := ih (v / 2 ^ 64) (by
        apply Nat.div_lt_of_lt_mul
        rwa [← Nat.pow_add, show 64 + 64 * n = 64 * (n + 1) by omega])
      refine ⟨BitVec.ofNat 64 v :: l, by rw [List.length_cons, h1], ?_⟩
      rw [Lemmas.Limb.val_cons, h2, BitVec.toNat_ofNat]
      omega
  exact hw 8 v hv

theorem p1_four : (𝕡 + 1) % 4 = 0 := by decide +kernel

/-- multiples on the curve and in the group -/
theorem link [DecidableEq K] {a x : ZMod 𝕡} (I : Iso (frob 𝕡 K) π (algebraMap (ZMod 𝕡) K a) N T τ g y) {S : (W (algebraMap (ZMod 𝕡) K a)).Point} (hS : S ≠ 0)
    (hx : xc S = algebraMap (ZMod 𝕡) K x) {P : Γ} (hP : P ∉ N) (hPx : g P = algebraMap (ZMod 𝕡) K x) (h0 : g P ≠ 0) {k : ℕ} (hk0 : 0 < k) (hk : k < 2 ^ 512) (h : k • S = 0) : k • P ∈ N := by
  have hA := A_sq I.x I.t
  have X := XRep.base (I.x.two) (nonsing0 (A := algebraMap (ZMod 𝕡) K a))
  have hS' : S ∉ (⊥ : AddSubgroup (W (algebraMap (ZMod 𝕡) K a)).Point) := by rwa [AddSubgroup.mem_bot]
  obtain ⟨k', hl, rfl⟩ := exists_fp hk
  have hIA : IsA (⟨algebraMap (ZMod 𝕡) K a, 1⟩ : Coef K) (algebraMap (ZMod 𝕡) K a) := ⟨one_ne_zero, (mul_one _).symm⟩
  have m1 := xMul_pr I.x hA (p := ⟨algebraMap (ZMod 𝕡) K x, 1⟩) ⟨fun h => absurd h hP, fun _ => ⟨one_ne_zero, by rw [hPx]; exact (mul_one _).symm⟩⟩ hP h0 hIA k' hl hk0
  have m2 := xMul_pr X hA (p := ⟨algebraMap (ZMod 𝕡) K x, 1⟩) ⟨fun h => absurd h hS', fun _ => ⟨one_ne_zero, by rw [hx]; exact (mul_one _).symm⟩⟩ hS' (by rw [hx, ← hPx]; exact h0) hIA k' hl hk0
  have hz := (m2.inf (by rw [AddSubgroup.mem_bot]; exact h)).1
  exact (Pr.weak m1).z.mp hz

/-- the primes that make an order big -/
def top : Finset ℕ := Ico 42 74

theorem top_big : 16 * 𝕡 < (∏ i ∈ top, el i) ^ 2 := by decide +kernel
theorem top_many : 2 * 256 ^ 64 + 6 * ∑ i ∈ top, (𝕡 + 1) / el i ≤ 6 * (𝕡 + 1) := by decide +kernel
theorem top_lt {i : ℕ} (h : i ∈ top) : i < 74 := (mem_Ico.mp h).2

theorem decided_of (hcard : ∀ s, Nat.card (eig π s).ker = 𝕡 + 1) {L : List (ℕ × Bool)} {a x : ZMod 𝕡} {la lx : Fp} (ha : IsElt la a) (hlx : IsElt lx x)
    (hg : Good π T τ g0 (algebraMap (ZMod 𝕡) K a) L) (I : Iso (frob 𝕡 K) π (algebraMap (ZMod 𝕡) K a) N T τ g y) {P : Γ} (hP : P ∉ N) (hPx : g P = algebraMap (ZMod 𝕡) K x)
    (hc : ∀ i ∈ top, ∀ c, ¬ el i ∣ c → c • P ∉ N) : (decided la lx).1 = true := by
  classical
  have hA := A_sq I.x I.t
  obtain ⟨v, hv⟩ := IsAlgClosed.exists_pow_nat_eq (algebraMap (ZMod 𝕡) K x ^ 3 + algebraMap (ZMod 𝕡) K a * algebraMap (ZMod 𝕡) K x ^ 2 + algebraMap (ZMod 𝕡) K x) (n := 2) (by decide)
  have hns := W_nonsingular (Lemmas.CsidhCurve.two_ne (K := K)) hA hv
  obtain ⟨S, hSe⟩ : ∃ S : (W (algebraMap (ZMod 𝕡) K a)).Point, S = .some _ _ hns := ⟨_, rfl⟩
  have hS : S ≠ 0 := hSe ▸ WeierstrassCurve.Affine.Point.some_ne_zero hns
  have hSx : xc S = algebraMap (ZMod 𝕡) K x := by rw [hSe]; rfl
  have hord := good_order hcard hg hS hSx
  have h0 : g P ≠ 0 := by
    intro h0
    have h1 := I.x.of_zero hP h0
    have := N.add_mem (N.add_mem h1 h1) I.x.T2
    rw [show P - T + (P - T) + (T + T) = P + P by abel, ← two_smul ℕ] at this
    have h42 : 42 ∈ top := by decide
    refine hc 42 h42 2 (fun hd => ?_) this
    have := Nat.le_of_dvd (by decide) hd
    have := el_ge (top_lt h42)
    omega
  have hord4 : ((𝕡 + 1) / 4) • (4 • S) = 0 := by
    rw [← mul_smul, Nat.div_mul_cancel (Nat.dvd_of_mod_eq_zero p1_four)]; exact hord
  have hd4 := addOrderOf_dvd_of_nsmul_eq_zero hord4
  have hq : 0 < (𝕡 + 1) / 4 := by decide +kernel
  have hdpos : 0 < addOrderOf (4 • S) := Nat.pos_of_dvd_of_pos hd4 hq
  have hdle := Nat.le_of_dvd hq hd4
  have hdl : ∀ i ∈ top, el i ∣ addOrderOf (4 • S) := by
    intro i hi
    by_contra hnd
    have hp := el_prime (top_lt hi)
    have h4 : ¬ el i ∣ addOrderOf (4 • S) * 4 := by
      intro hd
      rcases (Nat.Prime.dvd_mul hp).mp hd with h | h
      · exact hnd h
      · have h1 : el i ∣ 2 ^ 2 := h
        have := (Nat.prime_dvd_prime_iff_eq hp Nat.prime_two).mp (hp.dvd_of_dvd_pow h1)
        have := el_odd (top_lt hi)
        omega
    refine hc i hi _ h4 (link I hS hSx hP hPx h0 (by omega) ?_ ?_)
    · have h5 : (𝕡 + 1) / 4 * 4 < 2 ^ 512 := by decide +kernel
      exact lt_of_le_of_lt (Nat.mul_le_mul_right 4 hdle) h5
    · rw [mul_smul, addOrderOf_nsmul_eq_zero]
  have hprod : (∏ i ∈ top, el i) ∣ addOrderOf (4 • S) := by
    rw [← prod_image (f := fun n : ℕ => n) (g := el) (fun i hi j hj e => el_inj (top_lt hi) (top_lt hj) e)]
    refine Finset.prod_primes_dvd _ (fun q hq => ?_) (fun q hq => ?_)
    · obtain ⟨i, hi, rfl⟩ := mem_image.mp hq
      exact (el_prime (top_lt hi)).prime
    · obtain ⟨i, hi, rfl⟩ := mem_image.mp hq
      exact hdl i hi
  have hbig : 16 * 𝕡 < addOrderOf (4 • S) ^ 2 := lt_of_lt_of_le top_big (Nat.pow_le_pow_left (Nat.le_of_dvd hdpos hprod) 2)
  have hr := Lemmas.CsidhRun.rand_elt hlx []
  have hT : (𝕡 + 1) • S ≠ Lemmas.CsidhValidate.Tp _ := by rw [hord]; exact (WeierstrassCurve.Affine.Point.some_ne_zero _).symm
  have := (Lemmas.CsidhValidate.validateLoop_round ha hA hr hlx hS hSx hT).2.1 hord hbig
  rw [loop_some hr, loop_none (randFp_short (by decide))] at this
  by_contra hf
  rw [if_neg hf] at this
  cases this

/-- most of the numbers decide the validation -/
theorem many_decided (hcard : ∀ s, Nat.card (eig π s).ker = 𝕡 + 1) {L : List (ℕ × Bool)} {a : ZMod 𝕡} {la : Fp} (ha : IsElt la a)
    (hg : Good π T τ g0 (algebraMap (ZMod 𝕡) K a) L) : ∃ X : Finset (ZMod 𝕡), 256 ^ 64 ≤ 3 * X.card ∧ ∀ x ∈ X, ∀ lx, IsElt lx x → (decided la lx).1 = true := by
  classical
  have hg' := hg
  obtain ⟨N, g, y, I, hN, can⟩ := hg
  have hne : top.Nonempty := ⟨42, by decide⟩
  obtain ⟨X0, h01, h02⟩ := many hcard I rfl false top (fun i hi => top_lt hi) hne
  obtain ⟨X1, h11, h12⟩ := many hcard I rfl true top (fun i hi => top_lt hi) hne
  have hdis : Disjoint X0 X1 := by
    rw [Finset.disjoint_left]
    intro x hx0 hx1
    obtain ⟨t, ht⟩ := exists_sg a x
    have key : ∀ {s : Bool} {P : Γ}, P ∉ N → g P = algebraMap (ZMod 𝕡) K x → eig π s P ∈ N → (∀ i ∈ top, ∀ c, ¬ el i ∣ c → c • P ∉ N) → t = s := by
      intro s P hP hPx hs hc
      have h42 : 42 ∈ top := by decide
      refine sg_of I rfl hP hPx hs ?_ ht
      rw [← two_smul ℕ]
      refine hc 42 h42 2 fun hd => ?_
      have := Nat.le_of_dvd (by decide) hd
      have := el_ge (top_lt h42)
      omega
    obtain ⟨P, a1, a2, a3, a4⟩ := h02 x hx0
    obtain ⟨Q, b1, b2, b3, b4⟩ := h12 x hx1
    have := (key a1 a2 a3 a4).symm.trans (key b1 b2 b3 b4)
    cases this
  refine ⟨X0 ∪ X1, ?_, ?_⟩
  · rw [card_union_of_disjoint hdis]
    have h3 := top_many
    generalize ∑ i ∈ top, (𝕡 + 1) / el i = σ at h01 h11 h3
    generalize 256 ^ 64 = q at h3 ⊢
    generalize 𝕡 + 1 = r at h01 h11 h3
    omega
  · intro x hx lx hlx
    rcases mem_union.mp hx with h | h
    · obtain ⟨P, a1, a2, a3, a4⟩ := h02 x h
      exact decided_of hcard ha hlx hg' I a1 a2 a4
    · obtain ⟨P, a1, a2, a3, a4⟩ := h12 x h
      exact decided_of hcard ha hlx hg' I a1 a2 a4

theorem loop_block {b : List Model.Byte} (hb : b.length = 64) (a : Fp) (l : List Model.Byte) :
    validateLoop a (b ++ l) = if isLess (Model.Csidh.candidate b) Model.Csidh.p && (decided a (Model.Csidh.candidate b)).1 then some ((decided a (Model.Csidh.candidate b)).2.1, l) else validateLoop a l := by
  have hr := randFp_block hb l
  cases h : isLess (Model.Csidh.candidate b) Model.Csidh.p with
  | true =>
    rw [h, if_pos rfl] at hr
    rw [loop_some hr, Bool.true_and]
  | false =>
    rw [h, if_neg (by decide)] at hr
    rw [loop_rand hr, Bool.false_and, if_neg (by decide)]

/-- `Validate`, for a key that is not refused at once -/
def valMach (a : Fp) : Mach Unit where
  stuck _ l := validateLoop a l = none
  step _ b := if isLess (Model.Csidh.candidate b) Model.Csidh.p && (decided a (Model.Csidh.candidate b)).1 then none else some ()
  cons s b l hb := by
    rw [loop_block hb]
    split <;> simp

/-- `DeriveSecret`: `none` is the state of the validation, s0 the state in which the group action starts -/
def derMach (a : Fp) (s0 : RoundSt) : Mach (Option RoundSt) where
  stuck s l := match s with
    | none => match validateLoop a l with
      | none => True
      | some (false, _) => False
      | some (true, l') => actRounds actRound s0 l' = none
    | some s => actRounds actRound s l = none
  step s b := match s with
    | none => if isLess (Model.Csidh.candidate b) Model.Csidh.p && (decided a (Model.Csidh.candidate b)).1 then (if (decided a (Model.Csidh.candidate b)).2.1 then some (some s0) else none) else some none
    | some s => (actBlock s b).map some
  cons s b l hb := by
    cases s with
    | none =>
      simp only [loop_block hb]
      by_cases h : (isLess (Model.Csidh.candidate b) Model.Csidh.p && (decided a (Model.Csidh.candidate b)).1) = true
      · simp only [if_pos h]
        cases h2 : (decided a (Model.Csidh.candidate b)).2.1 <;> simp
      · simp only [if_neg h]
        simp
    | some s =>
      simp only
      rw [rounds_block hb]
      cases h : actBlock s b <;> simp

/-! ### The mean numbers of blocks -/

theorem act_step (hcard : ∀ s, Nat.card (eig π s).ker = 𝕡 + 1) {L : List (ℕ × Bool)} {s : RoundSt} (h : Going π T τ g0 L s) :
    1 + (∑ b : Block, (actBlock s b.1).elim 0 fun s' => 4 * (mu s' : ℚ)) / 256 ^ 64 ≤ 4 * (mu s : ℚ) := by
  obtain ⟨G, hG1, hG2⟩ := act_pot hcard h
  have hpos : (1 : ℚ) ≤ mu s := by exact_mod_cast going_pos h
  refine drop actMach (fun s => 4 * (mu s : ℚ)) 4 G (fun b => ?_) (fun b hb => ?_) (by exact_mod_cast hG1)
  · show (actBlock s b.1).elim 0 _ ≤ _
    cases hs : actBlock s b.1 with
    | none => show (0 : ℚ) ≤ 4 * (mu s : ℚ); linarith
    | some s' =>
      have : (mu s' : ℚ) ≤ mu s := by exact_mod_cast (act_inv hcard b.2 h hs).2
      show 4 * (mu s' : ℚ) ≤ 4 * (mu s : ℚ); linarith
  · show (actBlock s b.1).elim 0 _ + _ ≤ _
    rcases hG2 b hb with hs | ⟨s', hs, hm⟩
    · rw [hs]; show (0 : ℚ) + 4 ≤ 4 * (mu s : ℚ); linarith
    · have : (mu s' : ℚ) + 1 ≤ mu s := by exact_mod_cast hm
      rw [hs]; show 4 * (mu s' : ℚ) + 4 ≤ 4 * (mu s : ℚ); linarith

theorem act_mean (hcard : ∀ s, Nat.card (eig π s).ker = 𝕡 + 1) {L : List (ℕ × Bool)} {s : RoundSt} (h : Going π T τ g0 L s) :
    (∀ n, ∑ k ∈ range n, frac (fun l => actRounds actRound s l = none) k ≤ 4 * (mu s : ℚ)) ∧ ∀ pre, ∃ ext, actRounds actRound s (pre ++ ext) ≠ none := by
  have h0 : ∀ s, Going π T τ g0 L s → (0 : ℚ) ≤ 4 * (mu s : ℚ) := fun s _ => by positivity
  have h1 : ∀ s b s', b.length = 64 → Going π T τ g0 L s → actMach.step s b = some s' → Going π T τ g0 L s' := fun s b s' hb h hs => (act_inv hcard hb h hs).1
  exact ⟨fun n => mean actMach (fun s => 4 * (mu s : ℚ)) (Going π T τ g0 L) h0 h1 (fun s hs => act_step hcard hs) n s h,
    fun pre => live actMach (fun s => 4 * (mu s : ℚ)) (Going π T τ g0 L) h0 h1 (fun s hs => act_step hcard hs) _ s pre le_rfl h⟩

theorem val_step (hcard : ∀ s, Nat.card (eig π s).ker = 𝕡 + 1) {L : List (ℕ × Bool)} {a : ZMod 𝕡} {la : Fp} (ha : IsElt la a)
    (hg : Good π T τ g0 (algebraMap (ZMod 𝕡) K a) L) : ∃ G : Finset Block, 2 * 256 ^ 64 ≤ 3 * G.card ∧
      ∀ b ∈ G, (isLess (Model.Csidh.candidate b.1) Model.Csidh.p && (decided la (Model.Csidh.candidate b.1)).1) = true := by
  obtain ⟨X, hX1, hX2⟩ := many_decided hcard ha hg
  obtain ⟨G, hG1, hG2⟩ := blocks X
  refine ⟨G, by generalize 256 ^ 64 = q at hX1 ⊢; omega, fun b hb => ?_⟩
  obtain ⟨hl, x, hx, he⟩ := hG2 b hb
  rw [hl, hX2 x hx _ he]; rfl

theorem val_mean (hcard : ∀ s, Nat.card (eig π s).ker = 𝕡 + 1) {L : List (ℕ × Bool)} {a : ZMod 𝕡} {la : Fp} (ha : IsElt la a)
    (hg : Good π T τ g0 (algebraMap (ZMod 𝕡) K a) L) :
    (∀ n, ∑ k ∈ range n, frac (fun l => validateLoop la l = none) k ≤ 3 / 2) ∧ ∀ pre, ∃ ext, validateLoop la (pre ++ ext) ≠ none := by
  obtain ⟨G, hG1, hG2⟩ := val_step hcard ha hg
  have hG1' : (2 : ℚ) * 256 ^ 64 ≤ 3 * G.card := by exact_mod_cast hG1
  have h2 : ∀ s, True → 1 + (∑ b : Block, ((valMach la).step s b.1).elim 0 fun _ => (3 / 2 : ℚ)) / 256 ^ 64 ≤ 3 / 2 := by
    intro s _
    refine drop (valMach la) (fun _ => (3 / 2 : ℚ)) (s := s) (3 / 2) G (fun b => ?_) (fun b hb => ?_) ?_
    · cases (valMach la).step s b.1 with
      | none => show (0 : ℚ) ≤ 3 / 2; norm_num
      | some s' => exact le_rfl
    · have : (valMach la).step s b.1 = none := if_pos (hG2 b hb)
      rw [this]; show (0 : ℚ) + 3 / 2 ≤ 3 / 2; norm_num
    · generalize (256 : ℚ) ^ 64 = q at hG1' ⊢
      linarith
  exact ⟨fun n => mean (valMach la) (fun _ => (3 / 2 : ℚ)) (fun _ => True) (fun _ _ => by norm_num) (fun _ _ _ _ _ _ => trivial) h2 n () trivial,
    fun pre => live (valMach la) (fun _ => (3 / 2 : ℚ)) (fun _ => True) (fun _ _ => by norm_num) (fun _ _ _ _ _ _ => trivial) h2 _ () pre le_rfl trivial⟩

/-- the potential of `DeriveSecret` -/
def derPot (s0 : RoundSt) (s : Option RoundSt) : ℚ := match s with
  | none => 3 / 2 + 4 * (mu s0 : ℚ)
  | some s => 4 * (mu s : ℚ)

theorem der_mean (hcard : ∀ s, Nat.card (eig π s).ker = 𝕡 + 1) {L : List (ℕ × Bool)} {a : ZMod 𝕡} {la : Fp} (ha : IsElt la a)
    (hg : Good π T τ g0 (algebraMap (ZMod 𝕡) K a) L) {L' : List (ℕ × Bool)} {s0 : RoundSt} (h : Going π T τ g0 L' s0) :
    (∀ n, ∑ k ∈ range n, frac ((derMach la s0).stuck none) k ≤ 3 / 2 + 4 * (mu s0 : ℚ)) ∧ ∀ pre, ∃ ext, ¬ (derMach la s0).stuck none (pre ++ ext) := by
  obtain ⟨Inv, hInv⟩ : ∃ Inv : Option RoundSt → Prop, Inv = fun s => ∀ s', s = some s' → Going π T τ g0 L' s' := ⟨_, rfl⟩
  have h0 : ∀ s, Inv s → 0 ≤ derPot s0 s := by
    intro s _
    cases s with
    | none => rw [derPot]; positivity
    | some s => rw [derPot]; positivity
  have h1 : ∀ s b s', b.length = 64 → Inv s → (derMach la s0).step s b = some s' → Inv s' := by
    subst hInv
    intro s b s' hb hs hst s1 e
    subst e
    cases s with
    | none =>
      have hst : (if isLess (Model.Csidh.candidate b) Model.Csidh.p && (decided la (Model.Csidh.candidate b)).1 then (if (decided la (Model.Csidh.candidate b)).2.1 then some (some s0) else none) else some none) = some (some s1) := hst
      split at hst
      · split at hst
        · obtain rfl := Option.some.inj (Option.some.inj hst)
          exact h
        · cases hst
      · cases hst
    | some s =>
      have hst : (actBlock s b).map some = some (some s1) := hst
      rw [Option.map_eq_some_iff] at hst
      obtain ⟨s2, h3, h4⟩ := hst
      obtain rfl := Option.some.inj h4
      exact (act_inv hcard hb (hs s rfl) h3).1
  have h2 : ∀ s, Inv s → 1 + (∑ b : Block, ((derMach la s0).step s b.1).elim 0 (derPot s0)) / 256 ^ 64 ≤ derPot s0 s := by
    subst hInv
    intro s hs
    cases s with
    | none =>
      obtain ⟨G, hG1, hG2⟩ := val_step hcard ha hg
      have hG1' : (2 : ℚ) * 256 ^ 64 ≤ 3 * G.card := by exact_mod_cast hG1
      have hp : (0 : ℚ) ≤ mu s0 := by positivity
      have hst : ∀ b : Block, (derMach la s0).step none b.1 = (if isLess (Model.Csidh.candidate b.1) Model.Csidh.p && (decided la (Model.Csidh.candidate b.1)).1 then (if (decided la (Model.Csidh.candidate b.1)).2.1 then some (some s0) else none) else some none) := fun _ => rfl
      refine drop (derMach la s0) (derPot s0) (s := none) (3 / 2) G (fun b => ?_) (fun b hb => ?_) ?_
      · rw [hst]
        split
        · split
          · show 4 * (mu s0 : ℚ) ≤ 3 / 2 + 4 * (mu s0 : ℚ); linarith
          · show (0 : ℚ) ≤ 3 / 2 + 4 * (mu s0 : ℚ); linarith
        · exact le_rfl
      · rw [hst, if_pos (hG2 b hb)]
        split
        · show 4 * (mu s0 : ℚ) + 3 / 2 ≤ 3 / 2 + 4 * (mu s0 : ℚ); linarith
        · show (0 : ℚ) + 3 / 2 ≤ 3 / 2 + 4 * (mu s0 : ℚ); linarith
      · generalize (256 : ℚ) ^ 64 = q at hG1' ⊢
        linarith
    | some s =>
      have hst := act_step hcard (hs s rfl)
      have e : ∀ b : Block, ((derMach la s0).step (some s) b.1).elim 0 (derPot s0) = (actBlock s b.1).elim 0 fun s' => 4 * (mu s' : ℚ) := by
        intro b
        show ((actBlock s b.1).map some).elim 0 (derPot s0) = _
        cases actBlock s b.1 <;> rfl
      rw [sum_congr rfl fun b _ => e b]
      exact hst
  have hn : Inv none := by subst hInv; intro s' e; cases e
  exact ⟨fun n => mean (derMach la s0) (derPot s0) Inv h0 h1 h2 n none hn, fun pre => live (derMach la s0) (derPot s0) Inv h0 h1 h2 _ none pre le_rfl hn⟩

/-! ### The start -/

/-- the variables of the outer loop at its start -/
def start (a : Fp) (prv : PrivateKey) : RoundSt :=
  ⟨a, splitKey prv.e false primes 0 ⟨fpw 4, List.replicate 74 0, false⟩, splitKey prv.e true primes 0 ⟨fpw 4, List.replicate 74 0, false⟩, []⟩

theorem start_going {L : List (ℕ × Bool)} {a : ZMod 𝕡} {la : Fp} (ha : IsElt la a) (hg : Good π T τ g0 (algebraMap (ZMod 𝕡) K a) L) (prv : PrivateKey) : Going π T τ g0 L (start la prv) := by
  refine ⟨⟨⟨a, ha, by show Good π T τ g0 _ (L ++ degs []); rw [degs, List.map_nil, List.append_nil]; exact hg⟩, start_cof _ _, start_cof _ _, splitKey_len _ _, splitKey_len _ _⟩, ?_⟩
  have := (splitKey_spec prv.e false 74 0 rfl ⟨fpw 4, List.replicate 74 0, false⟩ (by simp) _ (by rw [List.drop_zero])).1
  show ¬ ((splitKey prv.e false primes 0 ⟨fpw 4, List.replicate 74 0, false⟩).done && _) = true
  rw [this]
  simp

theorem start_mu (la : Fp) (prv : PrivateKey) : mu (start la prv) = ∑ i ∈ range 74, (exponent prv.e i).natAbs + 2 := by
  have h := start_inv la prv.e
  have d0 := (splitKey_spec prv.e false 74 0 rfl ⟨fpw 4, List.replicate 74 0, false⟩ (by simp) _ (by rw [List.drop_zero])).1
  have d1 := (splitKey_spec prv.e true 74 0 rfl ⟨fpw 4, List.replicate 74 0, false⟩ (by simp) _ (by rw [List.drop_zero])).1
  have h0 := h.h0.sum
  have h1 := h.h1.sum
  rw [mu, start]
  simp only at h0 h1 ⊢
  generalize splitKey prv.e false primes 0 ⟨fpw 4, List.replicate 74 0, false⟩ = u at h0 d0 ⊢
  generalize splitKey prv.e true primes 0 ⟨fpw 4, List.replicate 74 0, false⟩ = v at h1 d1 ⊢
  rw [left, left, d0, d1, todos, todos]
  have e : ∑ i ∈ range 74, (exponent prv.e i).natAbs = ∑ i ∈ range 74, (u.e.getD i 0).toNat + ∑ i ∈ range 74, (v.e.getD i 0).toNat := by
    rw [← sum_add_distrib]
    refine sum_congr rfl fun i hi => ?_
    have a0 := h0 i (mem_range.mp hi)
    have a1 := h1 i (mem_range.mp hi)
    rw [cnt_nil, target] at a0 a1
    simp only [Bool.false_eq_true, if_false, if_true] at a0 a1
    omega
  rw [e]
  show _ + 1 + (_ + 1) = _
  omega

end Lemmas.CsidhBlocks
