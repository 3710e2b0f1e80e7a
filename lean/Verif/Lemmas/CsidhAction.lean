import Verif.Lemmas.CsidhKeys
/-
The bookkeeping of the CSIDH group action: which isogenies are evaluated, and that all intermediate values are field
elements.
-/
namespace Lemmas.CsidhAction
open Model Model.Limb Model.Csidh Spec Spec.Csidh Lemmas.CsidhField Lemmas.CsidhArith Lemmas.CsidhNat Lemmas.Limb Lemmas.CsidhKeys

/-- Number of isogenies of a degree and direction in a record -/
def cnt (log : List Event) (v : W64) (sg : Bool) : Nat := (log.filter fun ev => decide (ev.degree = v ∧ ev.sign = sg)).length

theorem cnt_nil (v : W64) (sg : Bool) : cnt [] v sg = 0 := rfl

theorem cnt_append (log : List Event) (ev : Event) (v : W64) (sg : Bool) :
    cnt (log ++ [ev]) v sg = cnt log v sg + if ev.degree = v ∧ ev.sign = sg then 1 else 0 := by
  rw [cnt, cnt, List.filter_append, List.length_append, List.filter_cons]
  by_cases h : ev.degree = v ∧ ev.sign = sg <;> simp [h]

theorem primes_len : primes.length = 74 := by decide
theorem primes_nodup : primes.Nodup := by decide +kernel

theorem word_primes {i : Nat} (h : i < 74) : word primes i = primes[i]'(by rw [primes_len]; exact h) := by
  rw [word, List.getD_eq_getElem?_getD, List.getElem?_eq_getElem (by rw [primes_len]; exact h)]; rfl

theorem primes_inj {i j : Nat} (hi : i < 74) (hj : j < 74) (h : word primes i = word primes j) : i = j := by
  rw [word_primes hi, word_primes hj] at h
  exact (List.Nodup.getElem_inj_iff primes_nodup).mp h

/-- What is still to do and what has been done add up to the exponents `t`. -/
structure HInv (sg : Bool) (t : Nat → Nat) (log : List Event) (e : List Byte) : Prop where
  len : e.length = 74
  sum : ∀ i < 74, (e.getD i 0).toNat + cnt log (word primes i) sg = t i

theorem getD_set (e : List Byte) (i j : Nat) (b : Byte) (h : i < e.length) : (e.set i b).getD j 0 = if i = j then b else e.getD j 0 := by
  rw [List.getD_eq_getElem?_getD, List.getElem?_set, List.getD_eq_getElem?_getD]
  split
  · rfl
  · rfl

theorem byte_pred {b : Byte} (h : b ≠ 0) : (b - 1).toNat + 1 = b.toNat := by
  have h0 : b.toNat ≠ 0 := fun e => h (BitVec.eq_of_toNat_eq e)
  rw [BitVec.toNat_sub]
  have := b.isLt
  have : (1 : Byte).toNat = 1 := rfl
  omega

/-- The facts about one iteration of the loop over the primes, `r` being the variables at its end -/
structure StepOK (sg : Bool) (st x : Fp) (i : Nat) (s r : ActSt) : Prop where
  len : r.half.e.length = 74
  other : ∀ j, j ≠ i → r.half.e.getD j 0 = s.half.e.getD j 0
  sum : ∀ j < 74, (r.half.e.getD j 0).toNat + cnt r.log (word primes j) sg = (s.half.e.getD j 0).toNat + cnt s.log (word primes j) sg
  cnt : ∀ v, cnt r.log v (!sg) = cnt s.log v (!sg)
  log : ∀ ev ∈ r.log, ev ∈ s.log ∨ ev = ⟨word primes i, sg, st, x, s.A, xMul limbOps s.P s.A (cofactor s.half.e i)⟩ ∧ isZero ev.kern.z = false

theorem actStep_spec (sg : Bool) (st x : Fp) (i : Nat) (hi : i < 74) (s : ActSt) (he : s.half.e.length = 74) :
    StepOK sg st x i s (actStep sg st x (word primes i) i s) ∧
    ((actStep sg st x (word primes i) i s).half.done = true → s.half.done = true ∧ (actStep sg st x (word primes i) i s).half.e.getD i 0 = 0) := by
  have base : ∀ s' : ActSt, actStep sg st x (word primes i) i s = {s' with half := {s'.half with done := s'.half.done && decide (s'.half.e.getD i 0 = 0)}} →
      s'.half.done = s.half.done → StepOK sg st x i s s' → StepOK sg st x i s (actStep sg st x (word primes i) i s) ∧
    ((actStep sg st x (word primes i) i s).half.done = true → s.half.done = true ∧ (actStep sg st x (word primes i) i s).half.e.getD i 0 = 0) := by
    intro s' e1 e2 h
    rw [e1]
    refine ⟨⟨h.1, h.2, h.3, h.4, h.5⟩, ?_⟩
    intro hd
    simp only [Bool.and_eq_true, decide_eq_true_iff] at hd
    exact ⟨e2 ▸ hd.1, hd.2⟩
  by_cases hz : s.half.e.getD i 0 ≠ 0
  · obtain ⟨K, hK⟩ : ∃ K, xMul limbOps s.P s.A (cofactor s.half.e i) = K := ⟨_, rfl⟩
    by_cases hk : isZero K.z = true
    · refine base s ?_ rfl ⟨he, fun _ _ => rfl, fun _ _ => rfl, fun _ => rfl, fun ev h => Or.inl h⟩
      rw [actStep, if_pos hz, hK]
      simp only [hk]
      rfl
    · have hk' : isZero K.z = false := by simpa using hk
      obtain ⟨PA, hPA⟩ : ∃ PA, xIso limbOps s.P s.A K (word primes i) = PA := ⟨_, rfl⟩
      obtain ⟨e', he'⟩ : ∃ e', s.half.e.set i (s.half.e.getD i 0 - 1) = e' := ⟨_, rfl⟩
      have hg : ∀ j, e'.getD j 0 = if i = j then s.half.e.getD i 0 - 1 else s.half.e.getD j 0 := by
        intro j; rw [← he', getD_set _ _ _ _ (by omega)]
      refine base ⟨PA.1, PA.2, {s.half with e := e', k := if e'.getD i 0 = 0 then mul512 s.half.k (word primes i) else s.half.k},
        s.log ++ [⟨word primes i, sg, st, x, s.A, K⟩]⟩ ?_ rfl ⟨?_, ?_, ?_, ?_, ?_⟩
      · rw [actStep, if_pos hz, hK]
        simp only [hk', hPA, he']
        rfl
      · rw [← he']; simp [he]
      · intro j hj
        show e'.getD j 0 = _
        rw [hg, if_neg (Ne.symm hj)]
      · intro j hj
        show (e'.getD j 0).toNat + cnt (s.log ++ [_]) (word primes j) sg = _
        rw [hg, cnt_append]
        simp only [and_true]
        by_cases hij : i = j
        · subst hij
          rw [if_pos rfl, if_pos rfl]
          have := byte_pred hz
          omega
        · rw [if_neg hij, if_neg (fun h => hij (primes_inj hi hj h))]; omega
      · intro v
        show cnt (s.log ++ [_]) v (!sg) = _
        rw [cnt_append, if_neg (by simp), Nat.add_zero]
      · intro ev hev
        rcases List.mem_append.mp hev with h | h
        · exact Or.inl h
        · rw [List.mem_singleton] at h
          exact Or.inr ⟨by rw [h, hK], by rw [h]; exact hk'⟩
  · refine base s ?_ rfl ⟨he, fun _ _ => rfl, fun _ _ => rfl, fun _ => rfl, fun ev h => Or.inl h⟩
    rw [actStep, if_neg hz]

theorem actLoop_append (sg : Bool) (st x : Fp) : ∀ (a b : List W64) (i : Nat) (s : ActSt),
    actLoop sg st x (a ++ b) i s = actLoop sg st x b (i + a.length) (actLoop sg st x a i s)
  | [], _, _, _ => rfl
  | v :: a, b, i, s => by
    rw [List.cons_append, actLoop, actLoop_append sg st x a b, actLoop, List.length_cons]
    congr 1
    omega

theorem primes_drop {i : Nat} (h : i < 74) : primes.drop i = word primes i :: primes.drop (i + 1) := by
  rw [List.drop_eq_getElem_cons (by rw [primes_len]; exact h), word_primes h]

/-- The loop over the primes from index `i = 74 - n`. -/
theorem actLoop_spec (sg : Bool) (st x : Fp) : ∀ (n i : Nat), i + n = 74 → ∀ s : ActSt, s.half.e.length = 74 → ∀ r, r = actLoop sg st x (primes.drop i) i s →
    r.half.e.length = 74 ∧ (∀ j, j < i → r.half.e.getD j 0 = s.half.e.getD j 0) ∧
    (r.half.done = true → s.half.done = true ∧ ∀ j, i ≤ j → j < 74 → r.half.e.getD j 0 = 0) ∧
    (∀ j < 74, (r.half.e.getD j 0).toNat + cnt r.log (word primes j) sg = (s.half.e.getD j 0).toNat + cnt s.log (word primes j) sg) ∧
    (∀ v, cnt r.log v (!sg) = cnt s.log v (!sg)) ∧
    (∀ ev ∈ r.log, ev ∈ s.log ∨ (∃ j < 74, ev.degree = word primes j) ∧ ev.sign = sg ∧ ev.start = st ∧ ev.x = x ∧ isZero ev.kern.z = false)
  | 0, i, h, s, he, r, hr => by
    rw [List.drop_eq_nil_of_le (by rw [primes_len]; omega), actLoop] at hr
    subst hr
    exact ⟨he, fun _ _ => rfl, fun h' => ⟨h', fun j h1 h2 => by omega⟩, fun _ _ => rfl, fun _ => rfl, fun ev h => Or.inl h⟩
  | n + 1, i, h, s, he, r, hr => by
    have hi : i < 74 := by omega
    rw [primes_drop hi, actLoop] at hr
    obtain ⟨⟨a1, a2, a4, a5, a6⟩, a3⟩ := actStep_spec sg st x i hi s he
    obtain ⟨b1, b2, b3, b4, b5, b6⟩ := actLoop_spec sg st x n (i + 1) (by omega) _ a1 r hr
    refine ⟨b1, ?_, ?_, ?_, ?_, ?_⟩
    · intro j hj
      rw [b2 j (by omega), a2 j (by omega)]
    · intro hd
      obtain ⟨c1, c2⟩ := b3 hd
      obtain ⟨c3, c4⟩ := a3 c1
      refine ⟨c3, fun j h1 h2 => ?_⟩
      by_cases hj : j = i
      · subst hj; rw [b2 j (by omega), c4]
      · exact c2 j (by omega) h2
    · intro j hj; rw [b4 j hj, a4 j hj]
    · intro v; rw [b5, a5]
    · intro ev hev
      rcases b6 ev hev with h1 | h1
      · rcases a6 ev h1 with h2 | ⟨h2, h3⟩
        · exact Or.inl h2
        · exact Or.inr ⟨⟨i, hi, by rw [h2]⟩, by rw [h2], by rw [h2], by rw [h2], h3⟩
      · exact Or.inr h1

/-- Invariant of the outer loop -/
structure RInv (t : Bool → Nat → Nat) (s : RoundSt) : Prop where
  h0 : HInv false (t false) s.log s.h0.e
  h1 : HInv true (t true) s.log s.h1.e
  d0 : s.h0.done = true → ∀ j < 74, s.h0.e.getD j 0 = 0
  d1 : s.h1.done = true → ∀ j < 74, s.h1.e.getD j 0 = 0

theorem HInv.of_cnt {sg : Bool} {t : Nat → Nat} {log log' : List Event} {e : List Byte} (h : HInv sg t log e) (hc : ∀ v, cnt log' v sg = cnt log v sg) :
    HInv sg t log' e := ⟨h.len, fun i hi => by rw [hc]; exact h.sum i hi⟩

/-- What one round of the outer loop does -/
theorem actRound_spec {t : Bool → Nat → Nat} {s s' : RoundSt} {x : Fp} (hs : RInv t s) (h : actRound s x = some s') :
    RInv t s' ∧ ∀ ev ∈ s'.log, ev ∈ s.log ∨ (∃ j < 74, ev.degree = word primes j) ∧ ev.start = s.A ∧ ev.x = x ∧ isZero ev.kern.z = false ∧
      ev.sign = decide (isNonQuadRes (montEval limbOps s.A x) ≠ 0) := by
  rw [actRound] at h
  obtain ⟨sg, hsg⟩ : ∃ sg, decide (isNonQuadRes (montEval limbOps s.A x) ≠ 0) = sg := ⟨_, rfl⟩
  simp only [hsg] at h
  cases sg with
  | false =>
    simp only [Bool.false_eq_true, if_false] at h
    split at h
    · cases h
    · obtain ⟨r, hr⟩ : ∃ r, roundHalf false s.A x s.h0 s.log = r := ⟨_, rfl⟩
      rw [hr] at h
      obtain ⟨b1, b2, b3, b4, b5, b6⟩ := actLoop_spec false s.A x 74 0 rfl ⟨xMul limbOps ⟨x, one⟩ ⟨s.A, one⟩ s.h0.k, ⟨s.A, one⟩, {s.h0 with done := true}, s.log⟩ (by exact hs.h0.len) r (by rw [List.drop_zero, ← hr, roundHalf])
      have h := Option.some.inj h
      subst h
      refine ⟨⟨⟨b1, ?_⟩, hs.h1.of_cnt b5, ?_, hs.d1⟩, ?_⟩
      · intro i hi; rw [b4 i hi]; exact hs.h0.sum i hi
      · intro hd j hj; exact (b3 hd).2 j (by omega) hj
      · intro ev hev
        rcases b6 ev hev with h1 | ⟨h1, h2, h3, h4, h5⟩
        · exact Or.inl h1
        · exact Or.inr ⟨h1, h3, h4, h5, h2.trans hsg.symm⟩
  | true =>
    simp only [if_true] at h
    split at h
    · cases h
    · obtain ⟨r, hr⟩ : ∃ r, roundHalf true s.A x s.h1 s.log = r := ⟨_, rfl⟩
      rw [hr] at h
      obtain ⟨b1, b2, b3, b4, b5, b6⟩ := actLoop_spec true s.A x 74 0 rfl ⟨xMul limbOps ⟨x, one⟩ ⟨s.A, one⟩ s.h1.k, ⟨s.A, one⟩, {s.h1 with done := true}, s.log⟩ (by exact hs.h1.len) r (by rw [List.drop_zero, ← hr, roundHalf])
      have h := Option.some.inj h
      subst h
      refine ⟨⟨hs.h0.of_cnt b5, ⟨b1, ?_⟩, hs.d0, ?_⟩, ?_⟩
      · intro i hi; rw [b4 i hi]; exact hs.h1.sum i hi
      · intro hd j hj; exact (b3 hd).2 j (by omega) hj
      · intro ev hev
        rcases b6 ev hev with h1 | ⟨h1, h2, h3, h4, h5⟩
        · exact Or.inl h1
        · exact Or.inr ⟨h1, h3, h4, h5, h2.trans hsg.symm⟩

/-- Every invariant of a round holds at the end of the outer loop, where both halves are done. -/
theorem actRounds_inv (round : RoundSt → Fp → Option RoundSt) (I : RoundSt → Prop)
    (hI : ∀ s x s', I s → (∃ a, IsElt x a) → round s x = some s' → I s') (s : RoundSt) (rng : List Byte) :
    ∀ s' rest, I s → actRounds round s rng = some (s', rest) → I s' ∧ s'.h0.done = true ∧ s'.h1.done = true := by
  induction s, rng using actRounds.induct (round := round) with
  | case1 s rng hr => intro s' rest _ h; rw [actRounds, hr] at h; cases h
  | case2 s rng x rest hr hn ih => 
    intro s' rest' hs h
    rw [actRounds, hr] at h
    simp only [hn] at h
    exact ih s' rest' hs h
  | case3 s rng x rest hr s1 hn hd =>
    intro s' rest' hs h
    rw [actRounds, hr] at h
    simp only [hn, hd, if_true] at h
    cases h
    simp only [Bool.and_eq_true] at hd
    exact ⟨hI _ _ _ hs (randFp_elt hr) hn, hd⟩
  | case4 s rng x rest hr s1 hn hd ih =>
    intro s' rest' hs h
    rw [actRounds, hr] at h
    simp only [hn] at h
    rw [if_neg hd] at h
    exact ih s' rest' (hI _ _ _ hs (randFp_elt hr) hn) h

/-- The exponents of one half at the start -/
theorem splitKey_spec (prv : List Byte) (sg : Bool) : ∀ (n i : Nat), i + n = 74 → ∀ h : Half, h.e.length = 74 → ∀ r, r = splitKey prv sg (primes.drop i) i h →
    r.done = h.done ∧ r.e.length = 74 ∧ (∀ j < i, r.e.getD j 0 = h.e.getD j 0) ∧
    ∀ j, i ≤ j → j < 74 → r.e.getD j 0 = let t := if sg then -expAt prv j else expAt prv j; if (0 : Int) < t.toInt then t else 0
  | 0, i, hi, h, he, r, hr => by
    rw [List.drop_eq_nil_of_le (by rw [primes_len]; omega), splitKey] at hr
    subst hr
    exact ⟨rfl, he, fun _ _ => rfl, fun j h1 h2 => by omega⟩
  | n + 1, i, hi, h, he, r, hr => by
    have hi' : i < 74 := by omega
    rw [primes_drop hi', splitKey] at hr
    obtain ⟨t, ht⟩ : ∃ t, (if sg then -expAt prv i else expAt prv i) = t := ⟨_, rfl⟩
    simp only [ht] at hr
    by_cases h0 : (0 : Int) < t.toInt
    · rw [if_pos h0] at hr
      obtain ⟨a1, a2, a3, a4⟩ := splitKey_spec prv sg n (i + 1) (by omega) _ (by simp [he]) r hr
      refine ⟨a1, a2, fun j hj => ?_, fun j h1 h2 => ?_⟩
      · rw [a3 j (by omega)]
        show (h.e.set i t).getD j 0 = _
        rw [getD_set _ _ _ _ (by omega), if_neg (by omega)]
      · by_cases hj : i = j
        · subst hj
          rw [a3 i (by omega)]
          show (h.e.set i t).getD i 0 = _
          rw [getD_set _ _ _ _ (by omega), if_pos rfl]
          simp only [ht]
          rw [if_pos h0]
        · exact a4 j (by omega) h2
    · rw [if_neg h0] at hr
      obtain ⟨a1, a2, a3, a4⟩ := splitKey_spec prv sg n (i + 1) (by omega) _ (by simp [he]) r hr
      refine ⟨a1, a2, fun j hj => ?_, fun j h1 h2 => ?_⟩
      · rw [a3 j (by omega)]
        show (h.e.set i 0).getD j 0 = _
        rw [getD_set _ _ _ _ (by omega), if_neg (by omega)]
      · by_cases hj : i = j
        · subst hj
          rw [a3 i (by omega)]
          show (h.e.set i 0).getD i 0 = _
          rw [getD_set _ _ _ _ (by omega), if_pos rfl]
          simp only [ht]
          rw [if_neg h0]
        · exact a4 j (by omega) h2

theorem exp_even : ∀ b : Byte, ((b <<< (0 * 4)).sshiftRight 4).toInt = (if b.toNat / 16 ^ 1 % 16 < 8 then ((b.toNat / 16 ^ 1 % 16 : Nat) : Int) else ((b.toNat / 16 ^ 1 % 16 : Nat) : Int) - 16) := by
  decide
theorem exp_odd : ∀ b : Byte, ((b <<< (1 * 4)).sshiftRight 4).toInt = (if b.toNat / 16 ^ 0 % 16 < 8 then ((b.toNat / 16 ^ 0 % 16 : Nat) : Int) else ((b.toNat / 16 ^ 0 % 16 : Nat) : Int) - 16) := by
  decide

theorem expAt_toInt (e : List Byte) (i : Nat) : (expAt e i).toInt = exponent e i := by
  rw [expAt, exponent, nibble]
  rcases Nat.mod_two_eq_zero_or_one i with hm | hm
  · rw [hm, if_pos rfl, show (i + 1) / 2 = i / 2 by omega, show (i + 1) % 2 = 1 by omega]
    exact exp_even _
  · rw [hm, if_neg (by omega : ¬ (1 : Nat) = 0), show (i - 1) / 2 = i / 2 by omega, show (i - 1) % 2 = 0 by omega]
    exact exp_odd _

theorem exponent_bound (e : List Byte) (i : Nat) : -8 ≤ exponent e i ∧ exponent e i ≤ 7 := by
  rw [exponent, nibble]
  split <;> split <;> omega

/-- Number of isogenies to evaluate, by direction and index of the prime -/
def target (prv : List Byte) (sg : Bool) (i : Nat) : Nat := if sg then (-exponent prv i).toNat else (exponent prv i).toNat

theorem neg_pos : ∀ b : Byte, -8 ≤ b.toInt → (if (0 : Int) < (-b).toInt then -b else 0).toNat = (-b.toInt).toNat := by decide
theorem pos_pos : ∀ b : Byte, (if (0 : Int) < b.toInt then b else 0).toNat = b.toInt.toNat := by decide

theorem start_inv (a : Fp) (prv : List Byte) :
    RInv (target prv) ⟨a, splitKey prv false primes 0 ⟨fpw 4, List.replicate 74 0, false⟩, splitKey prv true primes 0 ⟨fpw 4, List.replicate 74 0, false⟩, []⟩ := by
  obtain ⟨a1, a2, a3, a4⟩ := splitKey_spec prv false 74 0 rfl ⟨fpw 4, List.replicate 74 0, false⟩ (by simp) _ (by rw [List.drop_zero])
  obtain ⟨b1, b2, b3, b4⟩ := splitKey_spec prv true 74 0 rfl ⟨fpw 4, List.replicate 74 0, false⟩ (by simp) _ (by rw [List.drop_zero])
  refine ⟨⟨a2, ?_⟩, ⟨b2, ?_⟩, ?_, ?_⟩
  · intro i hi
    rw [a4 i (by omega) hi, cnt_nil, Nat.add_zero]
    simp only [Bool.false_eq_true, if_false]
    rw [pos_pos, expAt_toInt]; rfl
  · intro i hi
    rw [b4 i (by omega) hi, cnt_nil, Nat.add_zero]
    simp only [if_true]
    rw [neg_pos _ (by rw [expAt_toInt]; exact (exponent_bound _ _).1), expAt_toInt]; rfl
  · intro h; rw [a1] at h; cases h
  · intro h; rw [b1] at h; cases h

/-! ### All values are field elements -/

/-- Some field elements are represented. -/
structure Can (s : ActSt) : Prop where
  P : ∃ P, RPt IsElt s.P P
  A : ∃ A, RCoef IsElt s.A A
  log : ∀ ev ∈ s.log, (∃ a, IsElt ev.start a) ∧ (∃ a, IsElt ev.x a) ∧ (∃ A, RCoef IsElt ev.co A) ∧ ∃ P, RPt IsElt ev.kern P

theorem actStep_can {sg : Bool} {st x : Fp} (hst : ∃ a, IsElt st a) (hx : ∃ a, IsElt x a) (v : W64) (i : Nat) {s : ActSt} (h : Can s) :
    Can (actStep sg st x v i s) := by
  obtain ⟨P, hP⟩ := h.P
  obtain ⟨A, hA⟩ := h.A
  rw [actStep]
  split
  · obtain ⟨K, hK⟩ : ∃ K, xMul limbOps s.P s.A (cofactor s.half.e i) = K := ⟨_, rfl⟩
    have hKr := xMul_rel limb_rel hP hA (cofactor s.half.e i)
    rw [hK] at hKr ⊢
    obtain ⟨i1, i2⟩ := xIso_rel limb_rel hP hA hKr v
    obtain ⟨PA, hPA⟩ : ∃ PA, xIso limbOps s.P s.A K v = PA := ⟨_, rfl⟩
    simp only
    split
    · rw [hPA] at i1 i2 ⊢
      refine ⟨⟨_, i1⟩, ⟨_, i2⟩, ?_⟩
      intro ev hev
      rcases List.mem_append.mp hev with h' | h'
      · exact h.log ev h'
      · rw [List.mem_singleton] at h'
        rw [h']
        exact ⟨hst, hx, ⟨A, hA⟩, ⟨_, hKr⟩⟩
    · exact ⟨⟨P, hP⟩, ⟨A, hA⟩, h.log⟩
  · exact ⟨⟨P, hP⟩, ⟨A, hA⟩, h.log⟩

theorem actLoop_can {sg : Bool} {st x : Fp} (hst : ∃ a, IsElt st a) (hx : ∃ a, IsElt x a) : ∀ (vs : List W64) (i : Nat) {s : ActSt}, Can s →
    Can (actLoop sg st x vs i s)
  | [], _, _, h => h
  | v :: vs, i, _, h => actLoop_can hst hx vs (i + 1) (actStep_can hst hx v i h)

/-- Field elements are represented in the variables of the outer loop. -/
structure RCan (s : RoundSt) : Prop where
  A : ∃ a, IsElt s.A a
  log : ∀ ev ∈ s.log, (∃ a, IsElt ev.start a) ∧ (∃ a, IsElt ev.x a) ∧ (∃ A, RCoef IsElt ev.co A) ∧ ∃ P, RPt IsElt ev.kern P

theorem actRound_can {s s' : RoundSt} {x : Fp} (hs : RCan s) (hx : ∃ a, IsElt x a) (h : actRound s x = some s') : RCan s' := by
  obtain ⟨a, ha⟩ := hs.A
  obtain ⟨b, hb⟩ := hx
  rw [actRound] at h
  obtain ⟨sg, hsg⟩ : ∃ sg, decide (isNonQuadRes (montEval limbOps s.A x) ≠ 0) = sg := ⟨_, rfl⟩
  obtain ⟨hf, hhf⟩ : ∃ hf, (if sg then s.h1 else s.h0) = hf := ⟨_, rfl⟩
  simp only [hsg, hhf] at h
  split at h
  · cases h
  · have hP : RPt IsElt (xMul limbOps ⟨x, one⟩ ⟨s.A, one⟩ hf.k) _ := xMul_rel limb_rel (P' := ⟨b, 1⟩) (A' := ⟨a, 1⟩) ⟨hb, one_elt⟩ ⟨ha, one_elt⟩ hf.k
    have hc : Can (roundHalf sg s.A x hf s.log) := by
      rw [roundHalf]
      exact actLoop_can ⟨a, ha⟩ ⟨b, hb⟩ primes 0 ⟨⟨_, hP⟩, ⟨⟨a, 1⟩, ⟨ha, one_elt⟩⟩, hs.log⟩
    obtain ⟨r, hr⟩ : ∃ r, roundHalf sg s.A x hf s.log = r := ⟨_, rfl⟩
    rw [hr] at h hc
    have h := Option.some.inj h
    subst h
    obtain ⟨A, hA⟩ := hc.A
    refine ⟨⟨A.a * A.c⁻¹, ?_⟩, hc.log⟩
    have hi := inv_elt hA.c
    obtain ⟨c, hcc⟩ : ∃ c, modExpRdc512 r.A.c pMin1 = c := ⟨_, rfl⟩
    simp only [hcc] at hi ⊢
    exact mul_elt hA.a hi

theorem groupActionLog_spec {a : Fp} (prv : PrivateKey) {rng : List Byte} {s : RoundSt} {rest : List Byte} (h : groupActionLog a prv rng = some (s, rest)) :
    RInv (target prv.e) s ∧ s.h0.done = true ∧ s.h1.done = true ∧ ((∃ α, IsElt a α) → RCan s) ∧
    ∀ ev ∈ s.log, (∃ j < 74, ev.degree = word primes j) ∧ isZero ev.kern.z = false ∧
      ev.sign = decide (isNonQuadRes (montEval limbOps ev.start ev.x) ≠ 0) := by
  rw [groupActionLog] at h
  obtain ⟨⟨h1, h2⟩, h3, h4⟩ := actRounds_inv actRound (fun s => RInv (target prv.e) s ∧ ∀ ev ∈ s.log, (∃ j < 74, ev.degree = word primes j) ∧
      isZero ev.kern.z = false ∧ ev.sign = decide (isNonQuadRes (montEval limbOps ev.start ev.x) ≠ 0)) (by
    intro s x s' ⟨g1, g2⟩ _ g4
    obtain ⟨k1, k2⟩ := actRound_spec g1 g4
    refine ⟨k1, fun ev hev => ?_⟩
    rcases k2 ev hev with hh | ⟨i1, i2, i3, i4, i5⟩
    · exact g2 ev hh
    · exact ⟨i1, i4, by rw [i2, i3]; exact i5⟩) _ rng s rest ⟨start_inv a prv.e, by simp⟩ h
  refine ⟨h1, h3, h4, ?_, h2⟩
  intro ha
  exact (actRounds_inv actRound RCan (fun s x s' g1 g2 g3 => actRound_can g1 g2 g3) _ rng s rest ⟨ha, by simp⟩ h).1

theorem groupAction_elt {a a' : Fp} {prv : PrivateKey} {rng rest : List Byte} (ha : ∃ α, IsElt a α) (h : groupAction a prv rng = some (a', rest)) :
    ∃ α, IsElt a' α := by
  rw [groupAction, Option.map_eq_some_iff] at h
  obtain ⟨⟨s, r⟩, h1, h2⟩ := h
  cases h2
  exact ((groupActionLog_spec prv h1).2.2.2.1 ha).A

end Lemmas.CsidhAction
