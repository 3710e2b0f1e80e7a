import Verif.Lemmas.XIsog
import Verif.Lemmas.CsidhNat
import Mathlib.Tactic.Module
/-
The Montgomery ladder of curve.go computes the x-coordinate of [k]P.
-/
namespace Lemmas.CsidhLadder
open Model Model.Limb Model.Csidh Lemmas.CsidhNat Verif.XOnly Spec

variable {K : Type} [Field K] {Γ : Type*} [AddCommGroup Γ] {A : K} {N : AddSubgroup Γ} {T : Γ} {g : Γ → K}

/-- The projective point is the x-coordinate of `P`; the neutral element has Z = 0 and X ≠ 0. -/
structure Pr (N : AddSubgroup Γ) (g : Γ → K) (P : Γ) (p : Pt K) : Prop where
  inf : P ∈ N → p.z = 0 ∧ p.x ≠ 0
  fin : P ∉ N → p.z ≠ 0 ∧ p.x = g P * p.z

/-- (A : C) is the coefficient `A` -/
structure IsA (co : Coef K) (A : K) : Prop where
  c : co.c ≠ 0
  a : co.a = A * co.c

/-- (A + 2 : 4) -/
structure IsA24 (co : Coef K) (A : K) : Prop where
  c : co.c ≠ 0
  a : 4 * co.a = (A + 2) * co.c

theorem fadd (x y : K) : (fieldOps K).add x y = x + y := rfl
theorem fsub (x y : K) : (fieldOps K).sub x y = x - y := rfl
theorem fmul (x y : K) : (fieldOps K).mul x y = x * y := rfl
theorem ffour : (fieldOps K).four = 4 := rfl

/-- what doubling computes, up to a common factor -/
theorem pr_dbl (X : XRep A N T g) (hA : A ^ 2 ≠ 4) {P : Γ} {p q : Pt K} (hp : Pr N g P p) {l : K} (hl : l ≠ 0)
    (hx : q.x = l * (p.x ^ 2 - p.z ^ 2) ^ 2)
    (hz : q.z = l * (4 * (p.x * p.z * (p.x ^ 2 + A * p.x * p.z + p.z ^ 2)))) : Pr N g (P + P) q := by
  by_cases hP : P ∈ N
  · obtain ⟨h1, h2⟩ := hp.inf hP
    refine ⟨fun _ => ⟨?_, ?_⟩, fun h => absurd (N.add_mem hP hP) h⟩
    · rw [hz, h1]; ring
    · rw [hx, h1]
      have : l * (p.x ^ 2 - 0 ^ 2) ^ 2 = l * p.x ^ 4 := by ring
      rw [this]
      exact mul_ne_zero hl (pow_ne_zero 4 h2)
  · obtain ⟨h1, h2⟩ := hp.fin hP
    have ez : q.z = l * p.z ^ 4 * dblDen A (g P) := by rw [hz, h2, dblDen]; ring
    have ex : q.x = l * p.z ^ 4 * (g P ^ 2 - 1) ^ 2 := by rw [hx, h2]; ring
    have hl4 : l * p.z ^ 4 ≠ 0 := mul_ne_zero hl (pow_ne_zero 4 h1)
    refine ⟨fun h => ⟨?_, ?_⟩, fun h => ⟨?_, ?_⟩⟩
    · rw [ez, X.dbl0 P hP h, mul_zero]
    · rw [ex]
      refine mul_ne_zero hl4 (pow_ne_zero 2 ?_)
      intro h0
      have h4 := X.dbl0 P hP h
      rw [dblDen] at h4
      have h5 := (mul_eq_zero.mp h4).resolve_left X.four
      rcases mul_eq_zero.mp h5 with h6 | h6
      · rw [h6] at h0
        apply X.two
        have : (1 : K) = 0 := by linear_combination -h0
        linear_combination 2 * this
      · apply hA
        have e1 : A * g P = -2 := by linear_combination h6 - h0
        have e2 : A ^ 2 * g P ^ 2 = 4 := by linear_combination (A * g P - 2) * e1
        linear_combination e2 - A ^ 2 * h0
    · rw [ez]; exact mul_ne_zero hl4 (X.dbl P hP h).1
    · rw [ex, ez, ← (X.dbl P hP h).2]; ring

/-- what differential addition computes, up to a common factor -/
theorem pr_add (X : XRep A N T g) {P Q D : Γ} {p q d r : Pt K} (hp : Pr N g P p) (hq : Pr N g Q q) (hd : Pr N g D d)
    (hD : D ∉ N) (hg : g D ≠ 0) (hPQ : P - Q = D ∨ P - Q = -D)
    (hx : r.x = 4 * d.z * (p.x * q.x - p.z * q.z) ^ 2) (hz : r.z = 4 * d.x * (p.x * q.z - p.z * q.x) ^ 2) :
    Pr N g (P + Q) r := by
  obtain ⟨d1, d2⟩ := hd.fin hD
  have hDn : -D ∉ N := fun h => hD (by simpa using N.neg_mem h)
  have hS : P - Q ∉ N := by rcases hPQ with h | h <;> rw [h] <;> assumption
  have hgS : g (P - Q) = g D := by
    rcases hPQ with h | h <;> rw [h]
    exact X.neg D hD
  by_cases hP : P ∈ N
  · have hQ : Q ∉ N := fun h => hS (N.sub_mem hP h)
    have hsum : P + Q ∉ N := fun h => hQ (by simpa using N.sub_mem h hP)
    obtain ⟨p1, p2⟩ := hp.inf hP
    obtain ⟨q1, q2⟩ := hq.fin hQ
    have e1 : g (P + Q) = g Q := by rw [add_comm]; exact X.shift Q P hQ hP
    have e2 : g (P - Q) = g Q := by
      rw [← X.neg Q hQ, sub_eq_add_neg, add_comm]
      exact X.shift (-Q) P (fun h => hQ (by simpa using N.neg_mem h)) hP
    rw [hgS] at e2
    refine ⟨fun h => absurd h hsum, fun _ => ⟨?_, ?_⟩⟩
    · rw [hz, p1, d2]
      have : 4 * (g D * d.z) * (p.x * q.z - 0 * q.x) ^ 2 = 4 * g D * d.z * (p.x * q.z) ^ 2 := by ring
      rw [this]
      exact mul_ne_zero (mul_ne_zero (mul_ne_zero X.four hg) d1) (pow_ne_zero 2 (mul_ne_zero p2 q1))
    · rw [e1, hx, hz, p1, d2, q2, e2]; ring
  by_cases hQ : Q ∈ N
  · have hsum : P + Q ∉ N := fun h => hP (by simpa using N.sub_mem h hQ)
    obtain ⟨p1, p2⟩ := hp.fin hP
    obtain ⟨q1, q2⟩ := hq.inf hQ
    have e1 : g (P + Q) = g P := X.shift P Q hP hQ
    have e2 : g (P - Q) = g P := by
      rw [sub_eq_add_neg]
      exact X.shift P (-Q) hP (N.neg_mem hQ)
    rw [hgS] at e2
    refine ⟨fun h => absurd h hsum, fun _ => ⟨?_, ?_⟩⟩
    · rw [hz, q1, d2]
      have : 4 * (g D * d.z) * (p.x * 0 - p.z * q.x) ^ 2 = 4 * g D * d.z * (p.z * q.x) ^ 2 := by ring
      rw [this]
      exact mul_ne_zero (mul_ne_zero (mul_ne_zero X.four hg) d1) (pow_ne_zero 2 (mul_ne_zero p1 q2))
    · rw [e1, hx, hz, q1, d2, p2, e2]; ring
  obtain ⟨p1, p2⟩ := hp.fin hP
  obtain ⟨q1, q2⟩ := hq.fin hQ
  have ex : r.x = 4 * d.z * (p.z * q.z) ^ 2 * (g P * g Q - 1) ^ 2 := by rw [hx, p2, q2]; ring
  have ez : r.z = 4 * d.z * (p.z * q.z) ^ 2 * (g D * (g P - g Q) ^ 2) := by rw [hz, p2, q2, d2]; ring
  have hl : 4 * d.z * (p.z * q.z) ^ 2 ≠ 0 := mul_ne_zero (mul_ne_zero X.four d1) (pow_ne_zero 2 (mul_ne_zero p1 q1))
  refine ⟨fun h => ⟨?_, ?_⟩, fun h => ⟨?_, ?_⟩⟩
  · rw [ez, X.eq_of_add hQ h]; ring
  · rw [ex]
    refine mul_ne_zero hl (pow_ne_zero 2 ?_)
    intro h0
    have e : g P = g Q := X.eq_of_add hQ h
    have hPP : P + P ∉ N := by
      intro h'
      apply hS
      have := N.sub_mem h' h
      have e : P + P - (P + Q) = P - Q := by abel
      rwa [e] at this
    have e2 : g (P + P) = g (P - Q) := X.eq_of_sub hS (by
      have e : P + P - (P - Q) = P + Q := by abel
      rw [e]; exact h)
    obtain ⟨k1, k2⟩ := X.dbl P hP hPP
    rw [← e] at h0
    have : g (P + P) * dblDen A (g P) = 0 := by rw [k2]; linear_combination (g P ^ 2 - 1) * h0
    rcases mul_eq_zero.mp this with h5 | h5
    · exact hg (by rw [← hgS, ← e2]; exact h5)
    · exact k1 h5
  · have DA := X.add P Q hP hQ h hS
    rw [ez]
    exact mul_ne_zero hl (mul_ne_zero hg (pow_ne_zero 2 (sub_ne_zero.mpr DA.ne)))
  · have DA := X.add P Q hP hQ h hS
    rw [ex, ez, ← DA.prod, hgS]; ring

theorem xDbl_pr (X : XRep A N T g) (hA : A ^ 2 ≠ 4) {P : Γ} {p : Pt K} (hp : Pr N g P p) {c : Coef K} (hc : IsA c A) :
    Pr N g (P + P) (xDbl (fieldOps K) p ⟨c.a, c.c⟩) := by
  refine pr_dbl X hA hp (mul_ne_zero X.four hc.c) ?_ ?_ <;>
    simp only [xDbl, fadd, fsub, fmul, ffour, hc.a] <;> ring

theorem xDblAdd_dbl (X : XRep A N T g) (hA : A ^ 2 ≠ 4) {P : Γ} {p q d : Pt K} (hp : Pr N g P p) {c : Coef K} (hc : IsA24 c A) :
    Pr N g (P + P) (xDblAdd (fieldOps K) p q d c).1 := by
  refine pr_dbl X hA hp hc.c ?_ ?_
  · simp only [xDblAdd, fadd, fsub, fmul]; ring
  · simp only [xDblAdd, fadd, fsub, fmul]
    linear_combination 4 * p.x ^ 2 * p.z ^ 2 * hc.a

theorem xDblAdd_add (X : XRep A N T g) {P Q D : Γ} {p q d : Pt K} (hp : Pr N g P p) (hq : Pr N g Q q) (hd : Pr N g D d)
    (hD : D ∉ N) (hg : g D ≠ 0) (hPQ : P - Q = D ∨ P - Q = -D) (c : Coef K) :
    Pr N g (P + Q) (xDblAdd (fieldOps K) p q d c).2 := by
  refine pr_add X hp hq hd hD hg hPQ ?_ ?_ <;>
    simp only [xDblAdd, fadd, fsub, fmul] <;> ring

theorem cswappoint_eq (p q : Pt K) (c : Byte) : cswappoint (fieldOps K) p q c = if c = 0 then (p, q) else (q, p) := by
  rw [cswappoint]
  simp only [fieldOps]
  by_cases h : c = 0
  · simp only [if_pos h]
  · simp only [if_neg h]

theorem val_testBit : ∀ (s : List W64) (i : Nat), (val s).testBit i = ((s[i / 64]?).getD 0).getLsbD (i % 64)
  | [], i => by simp [val]
  | b :: s, i => by
    have e : val (b :: s) = 2 ^ 64 * val s + b.toNat := by rw [val, Nat.add_comm]
    rw [e, Nat.testBit_two_pow_mul_add _ b.isLt]
    split
    · rename_i h
      rw [Nat.div_eq_of_lt h, Nat.mod_eq_of_lt h]
      rfl
    · rename_i h
      rw [val_testBit s (i - 64)]
      have h1 : i / 64 = (i - 64) / 64 + 1 := by omega
      have h2 : (i - 64) % 64 = i % 64 := by omega
      rw [h1, h2, List.getElem?_cons_succ]

theorem bitAt_testBit (k : Fp) (j : Nat) : bitAt k j = if (val k).testBit j then 1 else 0 := by
  rw [bitAt_eq, val_testBit, word, List.getD_eq_getElem?_getD]

theorem bit_val (k : Fp) (i : Nat) : val k / 2 ^ i = 2 * (val k / 2 ^ (i + 1)) + if (val k).testBit i then 1 else 0 := by
  have h : val k / 2 ^ (i + 1) = val k / 2 ^ i / 2 := by rw [pow_succ, Nat.div_div_eq_div_mul]
  rw [h, Nat.testBit_eq_decide_div_mod_eq]
  have := Nat.mod_two_eq_zero_or_one (val k / 2 ^ i)
  rcases this with h | h <;> simp [h] <;> omega

/-- after the leading zeros are skipped, only the top bit is left -/
theorem topBit_spec (k : Fp) : ∀ j, 0 < val k → val k < 2 ^ (j + 1) → val k / 2 ^ topBit k j = 1
  | 0, h0, h => by
    rw [topBit]
    simp only [pow_zero, Nat.div_one]
    simp only [zero_add, pow_one] at h
    omega
  | j + 1, h0, h => by
    rw [topBit]
    have hlt : val k / 2 ^ (j + 1) < 2 := Nat.div_lt_of_lt_mul (by rw [pow_succ] at h; exact h)
    have hpos := Nat.zero_le (val k / 2 ^ (j + 1))
    generalize hq : val k / 2 ^ (j + 1) = q at hlt
    rw [bitAt_testBit]
    by_cases hb : (val k).testBit (j + 1) = true
    · rw [if_pos hb, if_pos (by decide)]
      have := Nat.testBit_eq_decide_div_mod_eq (x := val k) (i := j + 1)
      rw [hb, hq] at this
      have h2 := of_decide_eq_true this.symm
      omega
    · rw [if_neg hb, if_neg (by decide)]
      apply topBit_spec k j h0
      have := Nat.testBit_eq_decide_div_mod_eq (x := val k) (i := j + 1)
      rw [this, hq] at hb
      have h2 : ¬ (q % 2 = 1) := fun h => hb (decide_eq_true h)
      have h3 : val k / 2 ^ (j + 1) = 0 := by omega
      exact (Nat.div_eq_zero_iff.mp h3).resolve_left (by positivity)

/-- the order in which the loop keeps [n]P and [n+1]P, given the last bit -/
def Pair (N : AddSubgroup Γ) (g : Γ → K) (P : Γ) (n : Nat) (b : Byte) (q r : Pt K) : Prop :=
  Pr N g (n • P) (if b = 0 then q else r) ∧ Pr N g ((n + 1) • P) (if b = 0 then r else q)

theorem xMulLoop_pr (X : XRep A N T g) (hA : A ^ 2 ≠ 4) {P : Γ} {p : Pt K} (hp : Pr N g P p) (hP : P ∉ N) (hg : g P ≠ 0)
    {c : Coef K} (hc : IsA24 c A) (k : Fp) : ∀ (i : Nat) (q r : Pt K) (b : Byte), (b = 0 ∨ b = 1) → Pair N g P (val k / 2 ^ i) b q r →
    Pair N g P (val k) (if i = 0 then b else bitAt k 0) (xMulLoop (fieldOps K) p c k i q r b).1 (xMulLoop (fieldOps K) p c k i q r b).2
  | 0, q, r, b, hb, h => by
    simpa [xMulLoop] using h
  | i + 1, q, r, b, hb, h => by
    rw [if_neg (Nat.succ_ne_zero i)]
    have ih := xMulLoop_pr X hA hp hP hg hc k i
    rw [xMulLoop]
    set n := val k / 2 ^ (i + 1) with hn
    have hv := bit_val k i
    rw [← hn] at hv
    obtain ⟨h1, h2⟩ := h
    have d1 : n • P - (n + 1) • P = P ∨ n • P - (n + 1) • P = -P := Or.inr (by module)
    have d2 : (n + 1) • P - n • P = P ∨ (n + 1) • P - n • P = -P := Or.inl (by module)
    have s1 : n • P + n • P = (2 * n) • P := by module
    have s2 : (n + 1) • P + (n + 1) • P = (2 * n + 1 + 1) • P := by module
    have s3 : n • P + (n + 1) • P = (2 * n + 1) • P := by module
    have s4 : (n + 1) • P + n • P = (2 * n + 1) • P := by module
    have hlast : ∀ c, bitAt k i = c → (if i = 0 then c else bitAt k 0) = bitAt k 0 := by
      rintro c rfl
      by_cases h : i = 0
      · rw [if_pos h, h]
      · rw [if_neg h]
    by_cases ht : (val k).testBit i = true
    · have hbi : bitAt k i = 1 := by rw [bitAt_testBit, if_pos ht]
      rw [if_pos ht] at hv
      have hsw : cswappoint (fieldOps K) q r (b ^^^ bitAt k i) = (if b = 0 then r else q, if b = 0 then q else r) := by
        rw [cswappoint_eq, hbi]
        rcases hb with rfl | rfl <;> rfl
      have := ih (xDblAdd (fieldOps K) (if b = 0 then r else q) (if b = 0 then q else r) p c).1
        (xDblAdd (fieldOps K) (if b = 0 then r else q) (if b = 0 then q else r) p c).2 1 (Or.inr rfl) ⟨by
          rw [if_neg (by decide : ¬ (1 : Byte) = 0), hv, ← s4]
          exact xDblAdd_add X h2 h1 hp hP hg d2 c, by
          rw [if_neg (by decide : ¬ (1 : Byte) = 0), hv, ← s2]
          exact xDblAdd_dbl X hA h2 hc⟩
      rw [hlast 1 hbi] at this
      simp only [hsw]
      simp only [hbi]
      exact this
    · have hbi : bitAt k i = 0 := by rw [bitAt_testBit, if_neg ht]
      rw [if_neg ht, add_zero] at hv
      have hsw : cswappoint (fieldOps K) q r (b ^^^ bitAt k i) = (if b = 0 then q else r, if b = 0 then r else q) := by
        rw [cswappoint_eq, hbi]
        rcases hb with rfl | rfl <;> rfl
      have := ih (xDblAdd (fieldOps K) (if b = 0 then q else r) (if b = 0 then r else q) p c).1
        (xDblAdd (fieldOps K) (if b = 0 then q else r) (if b = 0 then r else q) p c).2 0 (Or.inl rfl) ⟨by
          rw [if_pos rfl, hv, ← s1]
          exact xDblAdd_dbl X hA h1 hc, by
          rw [if_pos rfl, hv, ← s3]
          exact xDblAdd_add X h1 h2 hp hP hg d1 c⟩
      rw [hlast 0 hbi] at this
      simp only [hsw]
      simp only [hbi]
      exact this

theorem isA24_of {c : Coef K} (h4 : (4 : K) ≠ 0) (hc : IsA c A) :
    IsA24 ⟨(fieldOps K).add ((fieldOps K).add c.c c.c) c.a, (fieldOps K).mul c.c (fieldOps K).four⟩ A := by
  constructor
  · exact mul_ne_zero hc.c h4
  · simp only [fadd, fmul, ffour, hc.a]; ring

theorem word0_bit (k : Fp) : ((word k 0 &&& 1).setWidth 8 : Byte) = bitAt k 0 := by
  rw [bitAt_eq, and_one]

/-- the ladder, from an affine point other than (0, 0) -/
theorem xMul_pr (X : XRep A N T g) (hA : A ^ 2 ≠ 4) {P : Γ} {p : Pt K} (hp : Pr N g P p) (hP : P ∉ N) (hg : g P ≠ 0)
    {c : Coef K} (hc : IsA c A) (k : Fp) (hk : k.length = 8) (h0 : 0 < val k) : Pr N g (val k • P) (xMul (fieldOps K) p c k) := by
  have hlt : val k < 2 ^ (511 + 1) := by
    have := Lemmas.Limb.val_lt k
    rw [hk] at this
    exact this
  have htop := topBit_spec k 511 h0 hlt
  have hL := xMulLoop_pr X hA hp hP hg (isA24_of X.four hc) k (topBit k 511) (xDbl (fieldOps K) p ⟨c.a, c.c⟩) p 1 (Or.inr rfl) (by
    rw [htop]
    refine ⟨?_, ?_⟩
    · rw [if_neg (by decide : ¬ (1 : Byte) = 0), one_smul]; exact hp
    · rw [if_neg (by decide : ¬ (1 : Byte) = 0), add_smul, one_smul]; exact xDbl_pr X hA hp hc)
  have hb : (if topBit k 511 = 0 then (1 : Byte) else bitAt k 0) = bitAt k 0 := by
    split
    · rename_i h
      rw [h, pow_zero, Nat.div_one] at htop
      rw [bitAt_testBit, htop]
      simp
    · rfl
  rw [hb] at hL
  rw [xMul]
  simp only [word0_bit, cswappoint_eq]
  have := hL.1
  rcases bitAt_bit k 0 with h | h
  · rw [h] at this ⊢; exact this
  · rw [h] at this ⊢; exact this

/-- once both points have Z = 0 this stays so -/
theorem xMulLoop_zero (p : Pt K) (c : Coef K) (k : Fp) : ∀ (i : Nat) (q r : Pt K) (b : Byte), q.z = 0 → r.z = 0 →
    (xMulLoop (fieldOps K) p c k i q r b).1.z = 0 ∧ (xMulLoop (fieldOps K) p c k i q r b).2.z = 0
  | 0, _, _, _, hq, hr => ⟨hq, hr⟩
  | i + 1, q, r, b, hq, hr => by
    rw [xMulLoop]
    obtain ⟨q', r', e, hq', hr'⟩ : ∃ q' r', cswappoint (fieldOps K) q r (b ^^^ bitAt k i) = (q', r') ∧ q'.z = 0 ∧ r'.z = 0 := by
      rw [cswappoint_eq]
      split
      · exact ⟨q, r, rfl, hq, hr⟩
      · exact ⟨r, q, rfl, hr, hq⟩
    simp only [e]
    apply xMulLoop_zero p c k i
    · simp only [xDblAdd, fadd, fsub, fmul, hq', hr']; ring
    · simp only [xDblAdd, fadd, fsub, fmul, hq', hr']; ring

theorem cswappoint_zero {q r : Pt K} (h1 : q.z = 0) (h2 : r.z = 0) (b : Byte) : (cswappoint (fieldOps K) q r b).1.z = 0 := by
  rw [cswappoint_eq]
  split <;> assumption

theorem xMul_zero {p : Pt K} (hp : p.z = 0) (c : Coef K) (k : Fp) : (xMul (fieldOps K) p c k).z = 0 := by
  have hq : (xDbl (fieldOps K) p ⟨c.a, c.c⟩).z = 0 := by simp only [xDbl, fadd, fsub, fmul, hp]; ring
  obtain ⟨h1, h2⟩ := xMulLoop_zero p ⟨(fieldOps K).add ((fieldOps K).add c.c c.c) c.a, (fieldOps K).mul c.c (fieldOps K).four⟩ k
    (topBit k 511) _ p 1 hq hp
  exact cswappoint_zero h1 h2 _

/-- at (0, 0) the ladder ends with Z = 0 whenever it takes at least one step -/
theorem xMul_T {p : Pt K} (hp : p.x = 0) (c : Coef K) (k : Fp) (hk : k.length = 8) (h0 : 2 ≤ val k) : (xMul (fieldOps K) p c k).z = 0 := by
  have hlt : val k < 2 ^ (511 + 1) := by
    have := Lemmas.Limb.val_lt k
    rw [hk] at this
    exact this
  have htop := topBit_spec k 511 (by omega) hlt
  have hq : (xDbl (fieldOps K) p ⟨c.a, c.c⟩).z = 0 := by simp only [xDbl, fadd, fsub, fmul, hp]; ring
  obtain ⟨j, hj⟩ : ∃ j, topBit k 511 = j := ⟨_, rfl⟩
  rw [xMul]
  simp only [hj]
  rw [hj] at htop
  cases j with
  | zero => rw [pow_zero, Nat.div_one] at htop; omega
  | succ j =>
    obtain ⟨c', hc'⟩ : ∃ c', (⟨(fieldOps K).add ((fieldOps K).add c.c c.c) c.a, (fieldOps K).mul c.c (fieldOps K).four⟩ : Coef K) = c' := ⟨_, rfl⟩
    simp only [hc']
    have hL : (xMulLoop (fieldOps K) p c' k (j + 1) (xDbl (fieldOps K) p ⟨c.a, c.c⟩) p 1).1.z = 0 ∧
        (xMulLoop (fieldOps K) p c' k (j + 1) (xDbl (fieldOps K) p ⟨c.a, c.c⟩) p 1).2.z = 0 := by
      rw [xMulLoop]
      obtain ⟨q', r', e, h⟩ : ∃ q' r', cswappoint (fieldOps K) (xDbl (fieldOps K) p ⟨c.a, c.c⟩) p (1 ^^^ bitAt k j) = (q', r') ∧
          (q'.x = 0 ∨ q'.z = 0) := by
        rw [cswappoint_eq]
        split
        · exact ⟨_, _, rfl, Or.inr hq⟩
        · exact ⟨_, _, rfl, Or.inl hp⟩
      simp only [e]
      apply xMulLoop_zero
      · simp only [xDblAdd, fadd, fsub, fmul]
        rcases h with h | h <;> rw [h] <;> ring
      · simp only [xDblAdd, fadd, fsub, fmul, hp]; ring
    exact cswappoint_zero hL.1 hL.2 _

end Lemmas.CsidhLadder
