import Verif.Lemmas.SidhX
import Verif.Spec.Num
import Mathlib.Tactic.Module
/-
The three-point ladder of curve.go computes the x-coordinate of P + [k]Q.
-/
namespace Lemmas.SidhLadder
open Model Model.Sidh Lemmas.SidhNat Verif.XOnly Lemmas.SidhX Spec

theorem bval_testBit : ∀ (s : List Byte) (i : Nat), (bval s).testBit i = ((s[i / 8]?).getD 0).getLsbD (i % 8)
  | [], i => by simp [bval]
  | b :: s, i => by
    have e : bval (b :: s) = 2 ^ 8 * bval s + b.toNat := by rw [bval, Nat.add_comm]
    rw [e, Nat.testBit_two_pow_mul_add _ b.isLt]
    split
    · rename_i h
      rw [Nat.div_eq_of_lt h, Nat.mod_eq_of_lt h]
      rfl
    · rename_i h
      rw [bval_testBit s (i - 8)]
      have h1 : i / 8 = (i - 8) / 8 + 1 := by omega
      have h2 : (i - 8) % 8 = i % 8 := by omega
      rw [h1, h2, List.getElem?_cons_succ]

theorem scalarBit_eq (s : List Byte) (i : Nat) (h : i < 8 * s.length) :
    scalarBit s i = some (if (bval s).testBit i then 1 else 0) := by
  have hi : i / 8 < s.length := by omega
  rw [bval_testBit, scalarBit, List.getElem?_eq_getElem hi]
  simp only [Option.bind_eq_bind, Option.bind_some, Option.getD_some]
  congr 1
  apply BitVec.eq_of_getLsbD_eq
  intro j hj
  rw [BitVec.getLsbD_and, BitVec.getLsbD_ushiftRight]
  cases j with
  | zero =>
    rw [Nat.add_zero]
    by_cases h : (s[i / 8]'hi).getLsbD (i % 8) = true
    · simp [h]
    · simp [h]
  | succ j =>
    have e1 : (1 : Byte).getLsbD (j + 1) = false := by simp [BitVec.getLsbD_one]
    rw [e1, Bool.and_false]
    split <;> simp [BitVec.getLsbD_one]

variable {K : Type} [Field K] {Γ : Type*} [AddCommGroup Γ] {A : K} {N : AddSubgroup Γ} {T : Γ} {g : Γ → K}

theorem cswapPt_eq (p q : Pt K) (c : Byte) : cswapPt (fieldOps K) p q c = if c = 0 then (p, q) else (q, p) := by
  rw [cswapPt]
  simp only [fieldOps]
  by_cases h : c = 0
  · simp only [if_pos h]
  · simp only [if_neg h]

/-- `P` and `Q` are independent enough for the ladder: no P + [z]Q is neutral or the point (0, 0). -/
structure Indep (N : AddSubgroup Γ) (T P Q : Γ) : Prop where
  ne : ∀ z : ℤ, P + z • Q ∉ N
  neT : ∀ z : ℤ, P + z • Q - T ∉ N

theorem ladderLoop_spec (X : XRep A N T g) {P Q : Γ} (hI : Indep N T P Q) {a24 : K} (ha : 4 * a24 = A + 2) (s : List Byte) :
    ∀ (k i m : Nat) (r0 r1 r2 : Pt K) (b : Byte), i + k ≤ 8 * s.length → (∀ j < i + k, (2 ^ j : ℤ) • Q ∉ N) →
    (k ≠ 0 → Rep r0 (g ((2 ^ i : ℤ) • Q))) → m = bval s % 2 ^ i → (b = 0 ∨ b = 1) →
    Rep (if b = 0 then r1 else r2) (g (P + (m : ℤ) • Q)) → Rep (if b = 0 then r2 else r1) (g (P + ((m : ℤ) - 2 ^ i) • Q)) →
    ∃ t1 t2 c, ladderLoop (fieldOps K) a24 s i k r0 r1 r2 b = some (t1, t2, c) ∧
      Rep (if c = 0 then t1 else t2) (g (P + ((bval s % 2 ^ (i + k) : Nat) : ℤ) • Q)) := by
  intro k
  induction k with
  | zero =>
    intro i m r0 r1 r2 b _ _ _ hm _ h1 _
    exact ⟨r1, r2, b, rfl, by rw [Nat.add_zero, ← hm]; exact h1⟩
  | succ k ih =>
    intro i m r0 r1 r2 b hl hQ h0 hm hb h1 h2
    have hbit := scalarBit_eq s i (by omega)
    have h0 := h0 (by omega)
    have hQi := hQ i (by omega)
    set R0 := (2 ^ i : ℤ) • Q with hR0
    set R1 := P + (m : ℤ) • Q with hR1
    set R2 := P + ((m : ℤ) - 2 ^ i) • Q with hR2
    have e1 : R0 + R2 = R1 := by simp only [hR0, hR1, hR2]; module
    have e2 : R0 - R2 = -(P + ((m : ℤ) - 2 ^ i - 2 ^ i) • Q) := by simp only [hR0, hR1, hR2]; module
    have e3 : R0 + R1 = P + ((m : ℤ) + 2 ^ i) • Q := by simp only [hR0, hR1, hR2]; module
    have e4 : R0 - R1 = -R2 := by simp only [hR0, hR1, hR2]; module
    have nneg : ∀ x : Γ, x ∉ N → -x ∉ N := fun x hx h' => hx (by simpa using N.neg_mem h')
    have hb2 : dblDen A (g R0) ≠ 0 ∧ g (R0 + R0) * dblDen A (g R0) = (g R0 ^ 2 - 1) ^ 2 ∨ R0 + R0 ∈ N := by
      by_cases h : R0 + R0 ∈ N
      · exact Or.inr h
      · exact Or.inl (X.dbl R0 hQi h)
    have hR00 : R0 + R0 = (2 ^ (i + 1) : ℤ) • Q := by rw [hR0, ← add_smul, pow_succ]; ring_nf
    have h0' : ∀ q d : Pt K, k ≠ 0 → Rep (xDbladd (fieldOps K) r0 q d a24).1 (g ((2 ^ (i + 1) : ℤ) • Q)) := by
      intro q d hk
      rw [← hR00]
      rcases hb2 with ⟨b1, b2⟩ | h
      · exact xDbladd_dbl X.two ha h0 b1 b2
      · exfalso
        rw [hR00] at h
        exact hQ (i + 1) (by omega) h
    have hpow : bval s % 2 ^ (i + 1) = m + 2 ^ i * (if (bval s).testBit i then 1 else 0) := by
      rw [hm, Nat.mod_pow_succ]
      congr 2
      rw [Nat.testBit_eq_decide_div_mod_eq]
      have := Nat.mod_two_eq_zero_or_one (bval s / 2 ^ i)
      rcases this with h | h <;> simp [h]
    have hn : i + 1 + k ≤ 8 * s.length := by omega
    have hQ' : ∀ j < i + 1 + k, (2 ^ j : ℤ) • Q ∉ N := fun j hj => hQ j (by omega)
    have hadd : i + (k + 1) = i + 1 + k := by omega
    by_cases ht : (bval s).testBit i = true
    · -- bit 1
      rw [if_pos ht] at hbit hpow
      have D := X.add R0 R1 hQi (hI.ne m) (by rw [e3]; exact hI.ne _) (by rw [e4]; exact nneg _ (hI.ne _))
      rw [e4, X.neg R2 (hI.ne _)] at D
      have hr2 : g R2 ≠ 0 := X.ne_zero (hI.ne _) (hI.neT _)
      have step : ∀ p q : Pt K, Rep p (g R1) → Rep q (g R2) →
          Rep (xDbladd (fieldOps K) r0 p q a24).2 (g (R0 + R1)) := fun p q hp hq => xDbladd_add X.four h0 hp hq D hr2
      have hsw : cswapPt (fieldOps K) r1 r2 (b ^^^ 1) = (if b = 0 then r2 else r1, if b = 0 then r1 else r2) := by
        rw [cswapPt_eq]
        rcases hb with rfl | rfl <;> rfl
      obtain ⟨t1, t2, c, h3, h4⟩ := ih (i + 1) (m + 2 ^ i * 1)
        (xDbladd (fieldOps K) r0 (if b = 0 then r1 else r2) (if b = 0 then r2 else r1) a24).1
        (if b = 0 then r2 else r1) (xDbladd (fieldOps K) r0 (if b = 0 then r1 else r2) (if b = 0 then r2 else r1) a24).2 1 hn hQ'
        (h0' _ _) hpow.symm (Or.inr rfl)
        (by
          have e : P + ((m + 2 ^ i * 1 : Nat) : ℤ) • Q = R0 + R1 := by rw [e3]; push_cast; rw [mul_one]
          rw [e]; exact step _ _ h1 h2)
        (by
          have e : P + (((m + 2 ^ i * 1 : Nat) : ℤ) - 2 ^ (i + 1)) • Q = R2 := by
            rw [hR2]; congr 2; push_cast; ring
          rw [e]; exact h2)
      refine ⟨t1, t2, c, ?_, by rw [hadd]; exact h4⟩
      rw [ladderLoop, hbit]
      simp only [Option.bind_eq_bind, Option.bind_some]
      rw [hsw]
      exact h3
    · rw [if_neg ht] at hbit hpow
      have D := X.add R0 R2 hQi (hI.ne _) (by rw [e1]; exact hI.ne _) (by rw [e2]; exact nneg _ (hI.ne _))
      rw [e1, e2, X.neg _ (hI.ne _)] at D
      have D' : DA A (g R0) (g R2) (g (P + ((m : ℤ) - 2 ^ i - 2 ^ i) • Q)) (g R1) :=
        ⟨D.ne, by rw [← D.prod]; ring, by rw [← D.sum]; ring⟩
      have hr1 : g R1 ≠ 0 := X.ne_zero (hI.ne _) (hI.neT _)
      have step : ∀ p q : Pt K, Rep p (g R2) → Rep q (g R1) →
          Rep (xDbladd (fieldOps K) r0 p q a24).2 (g (P + ((m : ℤ) - 2 ^ i - 2 ^ i) • Q)) :=
        fun p q hp hq => xDbladd_add X.four h0 hp hq D' hr1
      have hsw : cswapPt (fieldOps K) r1 r2 (b ^^^ 0) = (if b = 0 then r1 else r2, if b = 0 then r2 else r1) := by
        rw [cswapPt_eq]
        rcases hb with rfl | rfl <;> rfl
      obtain ⟨t1, t2, c, h3, h4⟩ := ih (i + 1) (m + 2 ^ i * 0)
        (xDbladd (fieldOps K) r0 (if b = 0 then r2 else r1) (if b = 0 then r1 else r2) a24).1
        (if b = 0 then r1 else r2) (xDbladd (fieldOps K) r0 (if b = 0 then r2 else r1) (if b = 0 then r1 else r2) a24).2 0 hn hQ'
        (h0' _ _) hpow.symm (Or.inl rfl)
        (by rw [Nat.mul_zero, Nat.add_zero]; exact h1)
        (by
          have e : P + (((m + 2 ^ i * 0 : Nat) : ℤ) - 2 ^ (i + 1)) • Q = P + ((m : ℤ) - 2 ^ i - 2 ^ i) • Q := by
            congr 2; push_cast; ring
          rw [e]; exact step _ _ h2 h1)
      refine ⟨t1, t2, c, ?_, by rw [hadd]; exact h4⟩
      rw [ladderLoop, hbit]
      simp only [Option.bind_eq_bind, Option.bind_some]
      rw [hsw]
      exact h3

/-- `ScalarMul3Pt` computes P + [k]Q, k the number in the low `n` bits of the scalar. -/
theorem scalarMul3Pt_spec (X : XRep A N T g) {P Q : Γ} (hI : Indep N T P Q) {c : Coef K} (hc : IsA c A) (s : List Byte) (n : Nat)
    (hn : n ≤ 8 * s.length) (hQ : ∀ j < n, (2 ^ j : ℤ) • Q ∉ N) {p q r : Pt K} (hp : Rep p (g P)) (hq : n ≠ 0 → Rep q (g Q))
    (hr : Rep r (g (P - Q))) :
    ∃ x, scalarMul3Pt (fieldOps K) c p q r n s = some x ∧ Rep x (g (P + ((bval s % 2 ^ n : Nat) : ℤ) • Q)) := by
  obtain ⟨t1, t2, b, h1, h2⟩ := ladderLoop_spec X hI (aplus2 X.four hc) s n 0 0 q p r 0 (by omega) (fun j hj => hQ j (by omega))
    (fun h => by simpa using hq h) (by simp [Nat.mod_one]) (Or.inl rfl) (by simpa using hp)
    (by
      have e : P + (((0 : Nat) : ℤ) - 2 ^ 0) • Q = P - Q := by push_cast; module
      rw [e]; exact hr)
  refine ⟨if b = 0 then t1 else t2, ?_, by rw [Nat.zero_add] at h2; exact h2⟩
  rw [scalarMul3Pt]
  simp only [Option.bind_eq_bind]
  rw [h1]
  simp only [Option.bind_some]
  rw [cswapPt_eq]
  split <;> rfl

end Lemmas.SidhLadder
