import Verif.Lemmas.CsidhCount
import Verif.Lemmas.CsidhMade
import Verif.Lemmas.CsidhRunAct
import Verif.Lemmas.BlockExpect

/-!
The loops of the CSIDH code end: enough of the random numbers bring the group action forward, and the validation to its end.
-/

namespace Lemmas.CsidhLive

open Model Model.Limb Model.Csidh Lemmas.CsidhNat Lemmas.CsidhLadder Lemmas.CsidhIso Lemmas.CsidhCof Lemmas.CsidhField Lemmas.CsidhCurve Lemmas.CsidhAction
  Lemmas.CsidhKeys Lemmas.CsidhOrbit Lemmas.CsidhCount Verif.XOnly Verif.Colon Spec Spec.Csidh Finset

local notation "𝕡" => Spec.Csidh.p

/-! ### What is left to do -/

/-- the number of isogenies left in one half -/
def todos (e : List Byte) : ℕ := ∑ j ∈ range 74, (e.getD j 0).toNat

/-- the number of isogenies left in one half, and one more if it is not known to be done -/
def left (h : Half) : ℕ := todos h.e + if h.done then 0 else 1

theorem todos_le {e e' : List Byte} (h : ∀ j, (e'.getD j 0).toNat ≤ (e.getD j 0).toNat) : todos e' ≤ todos e := sum_le_sum fun j _ => h j

theorem todos_lt {e e' : List Byte} (h : ∀ j, (e'.getD j 0).toNat ≤ (e.getD j 0).toNat) {i : ℕ} (hi : i < 74) (hlt : (e'.getD i 0).toNat < (e.getD i 0).toNat) : todos e' < todos e :=
  sum_lt_sum (fun j _ => h j) ⟨i, mem_range.mpr hi, hlt⟩

theorem actStep_le (sg : Bool) (st x : Fp) (i : ℕ) (hi : i < 74) (s : ActSt) (he : s.half.e.length = 74) :
    (∀ j, ((actStep sg st x (word primes i) i s).half.e.getD j 0).toNat ≤ (s.half.e.getD j 0).toNat) ∧
    (actStep sg st x (word primes i) i s).half.done = (s.half.done && decide ((actStep sg st x (word primes i) i s).half.e.getD i 0 = 0)) ∧
    (s.half.e.getD i 0 ≠ 0 → isZero (xMul limbOps s.P s.A (cofactor s.half.e i)).z = false →
      ((actStep sg st x (word primes i) i s).half.e.getD i 0).toNat < (s.half.e.getD i 0).toNat) := by
  by_cases hz : s.half.e.getD i 0 ≠ 0
  · obtain ⟨K, hK⟩ : ∃ K, xMul limbOps s.P s.A (cofactor s.half.e i) = K := ⟨_, rfl⟩
    rw [hK]
    by_cases hk : isZero K.z = true
    · have e : actStep sg st x (word primes i) i s = {s with half := {s.half with done := s.half.done && decide (s.half.e.getD i 0 = 0)}} := by
        rw [actStep, if_pos hz, hK]
        simp only [hk]
        rfl
      rw [e]
      exact ⟨fun _ => le_rfl, rfl, fun _ h => absurd h (by simp [hk])⟩
    · have hk' : isZero K.z = false := by simpa using hk
      obtain ⟨PA, hPA⟩ : ∃ PA, xIso limbOps s.P s.A K (word primes i) = PA := ⟨_, rfl⟩
      obtain ⟨e', he'⟩ : ∃ e', s.half.e.set i (s.half.e.getD i 0 - 1) = e' := ⟨_, rfl⟩
      have hg : ∀ j, e'.getD j 0 = if i = j then s.half.e.getD i 0 - 1 else s.half.e.getD j 0 := by
        intro j; rw [← he', getD_set _ _ _ _ (by omega)]
      have hb := byte_pred hz
      have e : ∃ Q B k log, actStep sg st x (word primes i) i s = ⟨Q, B, ⟨k, e', s.half.done && decide (e'.getD i 0 = 0)⟩, log⟩ := by
        refine ⟨PA.1, PA.2, if e'.getD i 0 = 0 then mul512 s.half.k (word primes i) else s.half.k, s.log ++ [⟨word primes i, sg, st, x, s.A, K⟩], ?_⟩
        rw [actStep, if_pos hz, hK]
        simp only [hk', hPA, he']
        rfl
      obtain ⟨Q, B, k, log, e⟩ := e
      rw [e]
      refine ⟨fun j => ?_, rfl, fun _ _ => ?_⟩
      · show (e'.getD j 0).toNat ≤ _
        rw [hg]; split
        · rename_i h; subst h; omega
        · exact le_rfl
      · show (e'.getD i 0).toNat < _
        rw [hg, if_pos rfl]; omega
  · have e : actStep sg st x (word primes i) i s = {s with half := {s.half with done := s.half.done && decide (s.half.e.getD i 0 = 0)}} := by
      rw [actStep, if_neg hz]
    rw [e]
    exact ⟨fun _ => le_rfl, rfl, fun h => absurd h hz⟩

theorem actLoop_le (sg : Bool) (st x : Fp) : ∀ (n i : ℕ), i + n = 74 → ∀ s : ActSt, s.half.e.length = 74 →
    (∀ j, ((actLoop sg st x (primes.drop i) i s).half.e.getD j 0).toNat ≤ (s.half.e.getD j 0).toNat) ∧
    (s.half.done = true → (∀ j, i ≤ j → j < 74 → (actLoop sg st x (primes.drop i) i s).half.e.getD j 0 = 0) → (actLoop sg st x (primes.drop i) i s).half.done = true)
  | 0, i, h, s, he => by
    rw [List.drop_eq_nil_of_le (by rw [primes_len]; omega), actLoop]
    exact ⟨fun _ => le_rfl, fun h _ => h⟩
  | n + 1, i, h, s, he => by
    have hi : i < 74 := by omega
    rw [primes_drop hi, actLoop]
    obtain ⟨a1, a2, -⟩ := actStep_le sg st x i hi s he
    have hlen := (actStep_spec sg st x i hi s he).1.len
    obtain ⟨b1, b2⟩ := actLoop_le sg st x n (i + 1) (by omega) _ hlen
    obtain ⟨-, c2, -⟩ := actLoop_spec sg st x n (i + 1) (by omega) _ hlen _ rfl
    refine ⟨fun j => (b1 j).trans (a1 j), fun hd hz => b2 ?_ fun j h1 h2 => hz j (by omega) h2⟩
    rw [a2, hd, Bool.true_and]
    apply decide_eq_true
    rw [← c2 i (by omega)]
    exact hz i le_rfl hi

/-- a round does not add to what is left; it takes off if some exponent is lowered, or none is left -/
theorem round_left (sg : Bool) (la lx : Fp) (h : Half) (log : List Event) (he : h.e.length = 74) (hd : h.done = false) :
    left (roundHalf sg la lx h log).half ≤ left h ∧
    ((∀ j < 74, h.e.getD j 0 = 0) → left (roundHalf sg la lx h log).half < left h) ∧
    (∀ i < 74, (∀ j < i, h.e.getD j 0 = 0) → h.e.getD i 0 ≠ 0 →
      isZero (xMul limbOps (xMul limbOps ⟨lx, one⟩ ⟨la, one⟩ h.k) ⟨la, one⟩ (cofactor h.e i)).z = false → left (roundHalf sg la lx h log).half < left h) := by
  obtain ⟨s0, hs0⟩ : ∃ s0 : ActSt, (⟨xMul limbOps ⟨lx, one⟩ ⟨la, one⟩ h.k, ⟨la, one⟩, {h with done := true}, log⟩ : ActSt) = s0 := ⟨_, rfl⟩
  have e0 : s0.half.e = h.e := by rw [← hs0]
  have ed : s0.half.done = true := by rw [← hs0]
  have er : roundHalf sg la lx h log = actLoop sg la lx (primes.drop 0) 0 s0 := by rw [← hs0]; rfl
  obtain ⟨a1, a2⟩ := actLoop_le sg la lx 74 0 rfl s0 (by rw [e0]; exact he)
  rw [er]
  obtain ⟨r, hr⟩ : ∃ r, actLoop sg la lx (primes.drop 0) 0 s0 = r := ⟨_, rfl⟩
  have hskip := fun i hi (hz : ∀ j < i, h.e.getD j 0 = 0) => Lemmas.CsidhRunAct.actLoop_skip sg la lx i hi i 0 s0 (by omega) (by rw [e0]; exact hz)
  rw [hr] at a1 a2 hskip ⊢
  rw [e0] at a1
  have hl : left h = todos h.e + 1 := by rw [left, hd]; rfl
  have hle : left r.half ≤ todos r.half.e + 1 := by rw [left]; split <;> omega
  have ht := todos_le a1
  refine ⟨by omega, fun hz => ?_, fun i hi hz hn hiz => ?_⟩
  · have hz' : ∀ j < 74, r.half.e.getD j 0 = 0 := by
      intro j hj
      have := a1 j
      rw [hz j hj] at this
      exact BitVec.eq_of_toNat_eq (Nat.le_zero.mp this)
    have := a2 ed fun j _ hj => hz' j hj
    rw [hl, left, this, if_pos rfl]
    omega
  · have e := hskip i hi hz
    rw [primes_drop hi, actLoop] at e
    have hlen : s0.half.e.length = 74 := by rw [e0]; exact he
    obtain ⟨-, -, b3⟩ := actStep_le sg la lx i hi s0 hlen
    have b4 := (actLoop_le sg la lx (74 - (i + 1)) (i + 1) (by omega) _ (actStep_spec sg la lx i hi s0 hlen).1.len).1 i
    rw [← e] at b4
    have b5 := b3 (by rw [e0]; exact hn) (by rw [e0, ← hs0]; exact hiz)
    have hlt : (r.half.e.getD i 0).toNat < (h.e.getD i 0).toNat := by
      rw [e0] at b5
      exact lt_of_le_of_lt b4 b5
    have := todos_lt a1 hi hlt
    omega

/-! ### Random numbers that bring the group action forward -/

theorem todo_skip (e : List Byte) : ∀ i, i ≤ 74 → (∀ j < i, e.getD j 0 = 0) → todo e 0 = todo e i
  | 0, _, _ => rfl
  | i + 1, hi, hz => by
    rw [todo_skip e i (by omega) fun j hj => hz j (by omega), todo_succ e (by omega : i < 74), fac, if_neg (by rw [not_not]; exact hz i (by omega)), one_mul]

/-- what is left in both halves -/
def mu (s : RoundSt) : ℕ := left s.h0 + left s.h1

variable {K : Type} [Field K] [Algebra (ZMod 𝕡) K] {Γ : Type*} [AddCommGroup Γ] {N : AddSubgroup Γ} {π : Γ →+ Γ} {T τ : Γ} {g g0 y : Γ → K}

theorem sign_sg {a v : ZMod 𝕡} {la x : Fp} (ha : IsElt la a) (hv : IsElt x v) : Sg a v (decide (isNonQuadRes (montEval limbOps la x) ≠ 0)) := by
  have hm : IsElt (montEval limbOps la x) _ := montEval_rel limb_rel ha hv
  have he : montEval (fieldOps (ZMod Spec.Csidh.p)) a v = v ^ 3 + a * v ^ 2 + v := by
    show (v * v + a * v + 1) * v = _
    ring
  rw [he] at hm
  rw [Sg, isNonQuadRes_elt hm]
  split <;> simp_all

theorem el_ge {i : ℕ} (hi : i < 74) : 3 ≤ el i := by
  have := (el_prime hi).two_le
  have := el_odd hi
  omega

/-- the first kernel point of the round -/
theorem kernel_ne [IsAlgClosed K] {a x : ZMod 𝕡} (I : Iso (frob 𝕡 K) π (algebraMap (ZMod 𝕡) K a) N T τ g y) {la lx : Fp} (ha : IsElt la a) (hx : IsElt lx x) {P : Γ} (hP : P ∉ N)
    (hPx : g P = algebraMap (ZMod 𝕡) K x) (hord : (𝕡 + 1) • P ∈ N) (h2 : P + P ∉ N) {k : Fp} {e : List Byte} (hk : KI k e) {i : ℕ} (hi : i < 74) (hz : ∀ j < i, e.getD j 0 = 0)
    (hn : e.getD i 0 ≠ 0) (hc : ∀ c, ¬ el i ∣ c → c • P ∉ N) : isZero (xMul limbOps (xMul limbOps ⟨lx, one⟩ ⟨la, one⟩ k) ⟨la, one⟩ (cofactor e i)).z = false := by
  have ha' : RCoef (Up K) (⟨la, one⟩ : Coef Fp) ⟨algebraMap (ZMod 𝕡) K a, 1⟩ := ⟨⟨a, ha, rfl⟩, ⟨1, one_elt, map_one _⟩⟩
  have hx' : RPt (Up K) (⟨lx, one⟩ : Pt Fp) ⟨algebraMap (ZMod 𝕡) K x, 1⟩ := ⟨⟨x, hx, rfl⟩, ⟨1, one_elt, map_one _⟩⟩
  have hIA : IsA (⟨algebraMap (ZMod 𝕡) K a, 1⟩ : Coef K) (algebraMap (ZMod 𝕡) K a) := ⟨one_ne_zero, (mul_one _).symm⟩
  have hA := A_sq I.x I.t
  have h0 : g P ≠ 0 := by
    intro h0
    have h1 := I.x.of_zero hP h0
    have := N.add_mem (N.add_mem h1 h1) I.x.T2
    rw [show P - T + (P - T) + (T + T) = P + P by abel] at this
    exact h2 this
  have hr1 := xMul_rel up_rel hx' ha' k
  have hr2 := xMul_rel up_rel hr1 ha' (cofactor e i)
  have hp1 := xMul_pr I.x hA (p := ⟨algebraMap (ZMod 𝕡) K x, 1⟩) ⟨fun h => absurd h hP, fun _ => ⟨one_ne_zero, by rw [hPx]; exact (mul_one _).symm⟩⟩ hP h0 hIA k hk.len hk.pos
  -- the order of the point
  obtain ⟨m, hm0, hm1, hm2⟩ := el_once hi
  have hto : todo e 0 = el i * todo e (i + 1) := by rw [todo_skip e i hi.le hz, todo_succ _ hi, fac, if_pos hn]
  have hval := hk.val
  have hm3 : todo e (i + 1) * val k = m := by
    rw [hto, hm2] at hval
    apply Nat.eq_of_mul_eq_mul_left (el_prime hi).pos
    rw [← hval]; ring
  have hQ : todo e (i + 1) • val k • P ∉ N := by
    rw [← mul_smul, hm3]
    exact hc m hm1
  have hQ0 : val k • P ∉ N := fun h => hQ (N.nsmul_mem h _)
  have hgQ : g (val k • P) ≠ 0 := odd_T I.x (todo_odd e 0) hQ0 (by rw [← mul_smul, mul_comm, hval]; exact hord)
  obtain ⟨hcl, hcv⟩ := cofactor_val e hi
  have hp2 := xMul_pr I.x hA hp1 hQ0 hgQ hIA (cofactor e i) hcl (by rw [hcv]; exact todo_pos _ _)
  rw [hcv] at hp2
  have hne := (hp2.fin hQ).1
  obtain ⟨v, hv, hv'⟩ := hr2.z
  rw [← hv'] at hne
  rw [Bool.eq_false_iff]
  intro h
  apply hne
  rw [(isZero_elt hv).mp h, map_zero]

theorem progress [IsAlgClosed K] (hcard : ∀ s, Nat.card (eig π s).ker = 𝕡 + 1) {L : List (ℕ × Bool)} {s : RoundSt} (h : RS π T τ g0 L s) {sg : Bool} (hnd : (if sg then s.h1 else s.h0).done = false) :
    ∃ X : Finset (ZMod 𝕡), 𝕡 + 1 ≤ 3 * X.card ∧ ∀ x ∈ X, ∀ lx, IsElt lx x → ∃ s', actRound s lx = some s' ∧ mu s' < mu s := by
  obtain ⟨a, ha, N, g, y, I, hN, can⟩ := h.good
  haveI : Finite N := I.fin
  obtain ⟨hf, hhf⟩ : ∃ hf, (if sg then s.h1 else s.h0) = hf := ⟨_, rfl⟩
  have hkf : KI hf.k hf.e ∧ hf.e.length = 74 := by
    rw [← hhf]; split
    · exact ⟨h.k1, h.l1⟩
    · exact ⟨h.k0, h.l0⟩
  rw [hhf] at hnd
  -- the prime looked at
  obtain ⟨i, hi, hcase⟩ : ∃ i < 74, (∀ j < 74, hf.e.getD j 0 = 0) ∨ (∀ j < i, hf.e.getD j 0 = 0) ∧ hf.e.getD i 0 ≠ 0 := by
    by_cases hall : ∀ j < 74, hf.e.getD j 0 = 0
    · exact ⟨0, by omega, Or.inl hall⟩
    · push Not at hall
      have hex : ∃ j, j < 74 ∧ hf.e.getD j 0 ≠ 0 := hall
      classical
      refine ⟨Nat.find hex, (Nat.find_spec hex).1, Or.inr ⟨fun j hj => ?_, (Nat.find_spec hex).2⟩⟩
      by_contra hc
      exact Nat.find_min hex hj ⟨lt_trans hj (Nat.find_spec hex).1, hc⟩
  obtain ⟨X, hX1, hX2⟩ := many hcard I rfl sg {i} (by simpa using hi) (singleton_nonempty i)
  rw [sum_singleton] at hX1
  refine ⟨X, ?_, ?_⟩
  · have := Nat.div_le_div_left (a := 𝕡 + 1) (el_ge hi) (by decide)
    have h4 := Nat.div_mul_le_self (𝕡 + 1) 3
    generalize 𝕡 + 1 = q at this h4 hX1 ⊢
    omega
  · intro x hx lx hlx
    obtain ⟨P, hP, hPx, hes, hc⟩ := hX2 x hx
    have hc := hc i (mem_singleton_self i)
    have hord : (𝕡 + 1) • P ∈ N := smul_mem (Nat.succ_ne_zero _) (hcard sg) (fun Q hQ => (I.stab Q).mpr hQ) hes
    have h2 : P + P ∉ N := by
      rw [← two_smul ℕ]
      refine hc 2 fun hd => ?_
      have := Nat.le_of_dvd (by decide) hd
      have := el_ge hi
      omega
    have hsg := sg_of I rfl hP hPx hes h2 (sign_sg ha hlx)
    rw [actRound]
    simp only [hsg, hhf, hnd]
    have hlt : left (roundHalf sg s.A lx hf s.log).half < left hf := by
      obtain ⟨-, r2, r3⟩ := round_left sg s.A lx hf s.log hkf.2 hnd
      rcases hcase with hall | ⟨hz, hn⟩
      · exact r2 hall
      · exact r3 i hi hz hn (kernel_ne I ha hlx hP hPx hord h2 hkf.1 hi hz hn hc)
    generalize roundHalf sg s.A lx hf s.log = r at hlt ⊢
    refine ⟨_, rfl, ?_⟩
    rw [mu, mu]
    cases sg
    · simp only [Bool.false_eq_true, if_false] at hhf ⊢
      rw [hhf]; omega
    · simp only [if_true] at hhf ⊢
      rw [hhf]; omega

/-- no random number adds to what is left -/
theorem round_mu {s s' : RoundSt} {x : Fp} (l0 : s.h0.e.length = 74) (l1 : s.h1.e.length = 74) (hr : actRound s x = some s') : mu s' ≤ mu s := by
  rw [actRound] at hr
  obtain ⟨sg, hsg⟩ : ∃ sg, decide (isNonQuadRes (montEval limbOps s.A x) ≠ 0) = sg := ⟨_, rfl⟩
  obtain ⟨hf, hhf⟩ : ∃ hf, (if sg then s.h1 else s.h0) = hf := ⟨_, rfl⟩
  simp only [hsg, hhf] at hr
  have hl : hf.e.length = 74 := by
    rw [← hhf]; split
    · exact l1
    · exact l0
  split at hr
  · cases hr
  · rename_i hd
    have hle := (round_left sg s.A x hf s.log hl (by simpa using hd)).1
    generalize roundHalf sg s.A x hf s.log = r at hle hr
    obtain rfl := Option.some.inj hr
    rw [mu, mu]
    cases sg
    · simp only [Bool.false_eq_true, if_false] at hhf ⊢
      rw [hhf]; omega
    · simp only [if_true] at hhf ⊢
      rw [hhf]; omega

end Lemmas.CsidhLive
