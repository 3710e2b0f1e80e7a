import Verif.Lemmas.CsidhArith
import Mathlib.FieldTheory.Finite.Basic
import Mathlib.NumberTheory.LegendreSymbol.Basic
/-! The word arithmetic of CSIDH is that of the field, in Montgomery representation. -/
namespace Lemmas.CsidhField
open Model Model.Limb Model.Csidh Spec Lemmas.Limb Lemmas.CsidhArith Spec.Csidh Lemmas.CsidhPrime

local notation "𝕡" => Spec.Csidh.p

theorem two_ne : (2 : ZMod 𝕡) ≠ 0 := by
  intro h
  have : ((2 : Nat) : ZMod 𝕡) = 0 := by exact_mod_cast h
  rw [ZMod.natCast_eq_zero_iff] at this
  have := Nat.le_of_dvd (by norm_num) this
  have := p_bound
  omega

theorem R_ne : (2 ^ 512 : ZMod 𝕡) ≠ 0 := pow_ne_zero _ two_ne

theorem eq_of_cast {m n : Nat} (hm : m < 𝕡) (hn : n < 𝕡) (h : (m : ZMod 𝕡) = n) : m = n := by
  rw [ZMod.natCast_eq_natCast_iff'] at h
  rwa [Nat.mod_eq_of_lt hm, Nat.mod_eq_of_lt hn] at h

theorem elt_unique {x y : Fp} {a : ZMod 𝕡} (hx : IsElt x a) (hy : IsElt y a) : x = y :=
  val_inj (hx.len.trans hy.len.symm) (eq_of_cast hx.lt hy.lt (hx.val.trans hy.val.symm))

theorem elt_inj {x : Fp} {a b : ZMod 𝕡} (hx : IsElt x a) (hy : IsElt x b) : a = b :=
  mul_right_cancel₀ R_ne (hx.val.symm.trans hy.val)

theorem elt_zero_iff {x : Fp} {a : ZMod 𝕡} (hx : IsElt x a) : Spec.val x = 0 ↔ a = 0 := by
  constructor
  · intro h
    have := hx.val
    rw [h, Nat.cast_zero] at this
    exact (mul_eq_zero.mp this.symm).resolve_right R_ne
  · intro h
    have := hx.val
    rw [h, zero_mul, ZMod.natCast_eq_zero_iff] at this
    exact Nat.eq_zero_of_dvd_of_lt this hx.lt

theorem isZero_elt {x : Fp} {a : ZMod 𝕡} (hx : IsElt x a) : isZero x = true ↔ a = 0 := by
  rw [isZero_spec, elt_zero_iff hx]

theorem equal_elt {x y : Fp} {a b : ZMod 𝕡} (hx : IsElt x a) (hy : IsElt y b) : equal x y = true ↔ a = b := by
  rw [equal_spec x y (hx.len.trans hy.len.symm)]
  constructor
  · intro h
    have := val_inj (hx.len.trans hy.len.symm) h
    subst this
    exact elt_inj hx hy
  · rintro rfl
    rw [elt_unique hx hy]

/-- Every element has its representation. -/
theorem elt_exists (a : ZMod 𝕡) : ∃ x, IsElt x a := by
  have hw : ∀ (n v : Nat), v < 2 ^ (64 * n) → ∃ l : List W64, l.length = n ∧ Spec.val l = v := by
    intro n
    induction n with
    | zero => intro v hv; exact ⟨[], rfl, by simp at hv; rw [hv]; rfl⟩
    | succ n ih =>
      intro v hv
      obtain ⟨l, h1, h2⟩ := ih (v / 2 ^ 64) (by
        apply Nat.div_lt_of_lt_mul
        rwa [← Nat.pow_add, show 64 + 64 * n = 64 * (n + 1) by omega])
      refine ⟨BitVec.ofNat 64 v :: l, by rw [List.length_cons, h1], ?_⟩
      rw [val_cons, h2, BitVec.toNat_ofNat]
      omega
  have hp := p_bound
  have hlt := ZMod.val_lt (a * 2 ^ 512)
  obtain ⟨l, h1, h2⟩ := hw 8 (a * 2 ^ 512).val (by omega)
  exact ⟨l, h1, by rw [h2]; exact hlt, by rw [h2, ZMod.natCast_zmod_val]⟩

theorem zero_elt : IsElt (List.replicate 8 0) 0 := ⟨rfl, by rw [val_replicate_zero]; exact Nat.zero_lt_of_lt p_bound.1, by rw [val_replicate_zero]; simp⟩

theorem const_elt (x : Fp) (n : Nat) (hl : x.length = 8) (h : Spec.val x = n * 2 ^ 512 % 𝕡) : IsElt x (n : ZMod 𝕡) := by
  refine ⟨hl, by rw [h]; exact Nat.mod_lt _ (Nat.zero_lt_of_lt p_bound.1), ?_⟩
  rw [h, ZMod.natCast_mod]; push_cast; rfl

theorem one_elt : IsElt one 1 := by
  have := const_elt one 1 rfl (by decide +kernel)
  rwa [Nat.cast_one] at this
theorem two_elt : IsElt two 2 := const_elt two 2 rfl (by decide +kernel)
theorem four_elt : IsElt four 4 := const_elt four 4 rfl (by decide +kernel)

theorem add_elt {x y : Fp} {a b : ZMod 𝕡} (hx : IsElt x a) (hy : IsElt y b) : IsElt (addRdc x y) (a + b) := by
  obtain ⟨h1, h2⟩ := addRdc_spec x y hx.len hy.len hx.lt hy.lt
  refine ⟨h1, by rw [h2]; exact Nat.mod_lt _ (Nat.zero_lt_of_lt p_bound.1), ?_⟩
  rw [h2, ZMod.natCast_mod, Nat.cast_add, hx.val, hy.val, add_mul]

theorem sub_elt {x y : Fp} {a b : ZMod 𝕡} (hx : IsElt x a) (hy : IsElt y b) : IsElt (subRdc x y) (a - b) := by
  obtain ⟨h1, h2⟩ := subRdc_spec x y hx.len hy.len hx.lt hy.lt
  refine ⟨h1, by rw [h2]; exact Nat.mod_lt _ (Nat.zero_lt_of_lt p_bound.1), ?_⟩
  have := hy.lt
  rw [h2, ZMod.natCast_mod, Nat.cast_sub (by omega), Nat.cast_add, hx.val, hy.val, sub_mul, ZMod.natCast_self, add_zero]

theorem mul_elt {x y : Fp} {a b : ZMod 𝕡} (hx : IsElt x a) (hy : IsElt y b) : IsElt (mulRdc x y) (a * b) := by
  obtain ⟨h1, h2, h3⟩ := mulRdc_spec x y hx.len hy.len hy.lt
  refine ⟨h1, h2, ?_⟩
  have h4 := congrArg (Nat.cast : Nat → ZMod 𝕡) h3
  simp only [ZMod.natCast_mod] at h4
  rw [Nat.cast_mul, Nat.cast_mul, hx.val, hy.val] at h4
  apply mul_left_cancel₀ R_ne
  push_cast at h4
  linear_combination h4

theorem twoNeg_elt : IsElt twoNeg (-2) := by
  have : twoNeg = subRdc (List.replicate 8 0) two := by decide +kernel
  rw [this, show (-2 : ZMod 𝕡) = 0 - 2 by ring]
  exact sub_elt zero_elt two_elt

theorem condSub_elt {x : Fp} {a : ZMod 𝕡} (hx : IsElt x a) : condSub x = x := by
  obtain ⟨h1, h2⟩ := condSub_spec x hx.len
  rw [if_pos hx.lt] at h2
  exact val_inj (h1.trans hx.len.symm) h2

theorem precomp_spec {b : Fp} {β : ZMod 𝕡} (hb : IsElt b β) (k : Nat) :
    (precomp b k).length = 2 * k + 2 ∧ ∀ j < 2 * k + 2, IsElt ((precomp b k).getD j []) (β ^ j) := by
  induction k with
  | zero =>
    refine ⟨rfl, fun j hj => ?_⟩
    match j, hj with
    | 0, _ => rw [pow_zero]; exact one_elt
    | 1, _ => rw [pow_one]; exact hb
  | succ k ih =>
    obtain ⟨h1, h2⟩ := ih
    have hsq := mul_elt (h2 (2 * (k + 1) / 2) (by omega)) (h2 (2 * (k + 1) / 2) (by omega))
    rw [← pow_add, show 2 * (k + 1) / 2 + 2 * (k + 1) / 2 = 2 * k + 2 by omega] at hsq
    have hsb := mul_elt hsq hb
    rw [← pow_succ] at hsb
    refine ⟨by simp only [precomp, List.length_append, h1]; rfl, fun j hj => ?_⟩
    simp only [precomp]
    by_cases hlt : j < 2 * k + 2
    · have := h2 j hlt
      rw [List.getD_eq_getElem?_getD] at this ⊢
      rwa [List.getElem?_append_left (by omega)]
    · rw [List.getD_eq_getElem?_getD, List.getElem?_append_right (by omega), h1]
      rcases (show j = 2 * k + 2 ∨ j = 2 * k + 3 by omega) with rfl | rfl
      · rw [Nat.sub_self]; exact hsq
      · rw [show 2 * k + 3 - (2 * k + 2) = 1 by omega]; exact hsb

theorem sqrTimes_elt (k : Nat) : ∀ {r : Fp} {α : ZMod 𝕡}, IsElt r α → IsElt (sqrTimes k r) (α ^ 2 ^ k) := by
  induction k with
  | zero => intro r α h; simpa [sqrTimes] using h
  | succ k ih =>
    intro r α h
    have := ih (mul_elt h h)
    rw [← sq, ← pow_mul, ← pow_succ'] at this
    exact this

theorem word_div (e : List W64) (j : Nat) : (word e j).toNat = Spec.val e / 2 ^ (64 * j) % 2 ^ 64 := by
  induction e generalizing j with
  | nil => simp [word, val]
  | cons w ws ih =>
    cases j with
    | zero => rw [Nat.mul_zero, Nat.pow_zero, Nat.div_one, val_mod]
    | succ j =>
      have : word (w :: ws) (j + 1) = word ws j := by simp [word]
      have hw := w.isLt
      rw [this, ih, val_cons, show 64 * (j + 1) = 64 + 64 * j by omega, Nat.pow_add, ← Nat.div_div_eq_div_mul]
      congr 2
      omega

theorem idx_spec (e : Fp) (i : Nat) : ((word e (i / 16) >>> (i % 16 * 4)) &&& 15).toNat = Spec.val e / 16 ^ i % 16 := by
  rw [BitVec.toNat_and, BitVec.toNat_ushiftRight, show (15 : W64).toNat = 2 ^ 4 - 1 from rfl, Nat.and_two_pow_sub_one_eq_mod,
    word_div, Nat.shiftRight_eq_div_pow]
  have h : i % 16 * 4 ≤ 60 := by omega
  have e1 : 2 ^ 64 = 2 ^ (i % 16 * 4) * 2 ^ (64 - i % 16 * 4) := by rw [← Nat.pow_add]; congr 1; omega
  rw [e1, Nat.mod_mul_right_div_self, Nat.div_div_eq_div_mul, ← Nat.pow_add, Nat.mod_mod_of_dvd]
  · rw [show (16 : Nat) ^ i = 2 ^ (4 * i) from (Nat.pow_mul 2 4 i).symm]
    congr 3
    omega
  · exact Nat.pow_dvd_pow 2 (by omega)

theorem expLoop_elt {b : Fp} {β : ZMod 𝕡} (hb : IsElt b β) (e : Fp) (m : Nat) : ∀ (i : Nat) (r : Fp), i ≤ m →
    IsElt r (β ^ (Spec.val e % 16 ^ m / 16 ^ i)) → IsElt (expLoop (precomp b 7) e i r) (β ^ (Spec.val e % 16 ^ m)) := by
  intro i
  induction i with
  | zero => intro r _ h; simpa [expLoop] using h
  | succ i ih =>
    intro r hi h
    rw [expLoop]
    apply ih _ (by omega)
    rw [idx_spec]
    have h1 := mul_elt (sqrTimes_elt 4 h) ((precomp_spec hb 7).2 (Spec.val e / 16 ^ i % 16) (by omega))
    rw [← pow_mul, ← pow_add] at h1
    convert h1 using 2
    have e1 : Spec.val e / 16 ^ i % 16 = Spec.val e % 16 ^ m / 16 ^ i % 16 := by
      have : 16 ^ m = 16 ^ i * 16 ^ (m - i) := by rw [← Nat.pow_add]; congr 1; omega
      rw [this, Nat.mod_mul_right_div_self, Nat.mod_mod_of_dvd]
      exact dvd_pow_self 16 (by omega)
    rw [e1, Nat.pow_succ, ← Nat.div_div_eq_div_mul]
    omega

theorem exp_elt {b : Fp} {β : ZMod 𝕡} (hb : IsElt b β) (e : Fp) (n : Nat) :
    IsElt (modExpRdcCommon b e n) (β ^ (Spec.val e % 16 ^ (n / 4))) := by
  have h : IsElt (expLoop (precomp b 7) e (n / 4) one) (β ^ (Spec.val e % 16 ^ (n / 4))) := by
    apply expLoop_elt hb e (n / 4) (n / 4) one le_rfl
    rw [Nat.div_eq_of_lt (Nat.mod_lt _ (by positivity)), pow_zero]
    exact one_elt
  rw [modExpRdcCommon, condSub_elt h]
  exact h

theorem exp512_elt {b : Fp} {β : ZMod 𝕡} (hb : IsElt b β) (e : Fp) (he : e.length = 8) : IsElt (modExpRdc512 b e) (β ^ Spec.val e) := by
  have h := exp_elt hb e 512
  have hlt := val_lt e
  rw [he] at hlt
  rwa [Nat.mod_eq_of_lt (show Spec.val e < 16 ^ (512 / 4) by
    rw [show (16 : Nat) ^ (512 / 4) = 2 ^ (64 * 8) from by rw [show (16 : Nat) = 2 ^ 4 from rfl, ← Nat.pow_mul]]; exact hlt)] at h

theorem exp64_elt {b : Fp} {β : ZMod 𝕡} (hb : IsElt b β) (e : W64) : IsElt (modExpRdc64 b e) (β ^ e.toNat) := by
  have h := exp_elt hb (e :: List.replicate 7 0) 64
  have hv : Spec.val (e :: List.replicate 7 0) = e.toNat := by rw [val_cons, val_replicate_zero]; omega
  have := e.isLt
  rw [hv, Nat.mod_eq_of_lt (show e.toNat < 16 ^ (64 / 4) by
    rw [show (16 : Nat) ^ (64 / 4) = 2 ^ 64 by norm_num]; exact this)] at h
  exact h

theorem inv_elt {x : Fp} {a : ZMod 𝕡} (hx : IsElt x a) : IsElt (modExpRdc512 x pMin1) a⁻¹ := by
  have h := exp512_elt hx pMin1 rfl
  have e : Spec.val pMin1 = 𝕡 - 2 := by decide +kernel
  rw [e] at h
  have : a ^ (𝕡 - 2) = a⁻¹ := by
    by_cases h0 : a = 0
    · rw [h0, inv_zero, zero_pow]
      have := p_bound; omega
    · apply eq_inv_of_mul_eq_one_left
      rw [← pow_succ, show 𝕡 - 2 + 1 = 𝕡 - 1 by have := p_bound; omega]
      exact ZMod.pow_card_sub_one_eq_one h0
  rwa [this] at h

/-- `isNonQuadRes` returns 0 on the non-zero squares and 1 otherwise; in particular 1 on zero. -/
theorem isNonQuadRes_elt {x : Fp} {a : ZMod 𝕡} (hx : IsElt x a) : isNonQuadRes x = if a ≠ 0 ∧ IsSquare a then 0 else 1 := by
  have h := exp512_elt hx pMin1By2 rfl
  have e : Spec.val pMin1By2 = 𝕡 / 2 := by decide +kernel
  rw [e] at h
  rw [isNonQuadRes, ctIsNonZero_spec]
  have hiff : ((List.zipWith (· ^^^ ·) (modExpRdc512 x pMin1By2) one).foldl (· ||| ·) 0 = (0 : W64)) ↔ a ≠ 0 ∧ IsSquare a := by
    rw [xor_fold _ _ (h.len.trans one_elt.len.symm)]
    constructor
    · intro h1
      rw [h1] at h
      have h2 := elt_inj h one_elt
      have h0 : a ≠ 0 := by
        rintro rfl
        rw [zero_pow (by have := p_bound; omega)] at h2
        exact one_ne_zero h2.symm
      exact ⟨h0, (ZMod.euler_criterion 𝕡 h0).mpr h2⟩
    · rintro ⟨h0, h1⟩
      rw [(ZMod.euler_criterion 𝕡 h0).mp h1] at h
      exact elt_unique h one_elt
  by_cases hc : a ≠ 0 ∧ IsSquare a
  · rw [if_pos (hiff.mpr hc), if_pos hc]
  · rw [if_neg (fun h' => hc (hiff.mp h')), if_neg hc]

end Lemmas.CsidhField
